import Verif.Spec.H5
import Verif.Lemmas.NArr
import Verif.Lemmas.GkylProps
import Mathlib.Algebra.Order.Field.Basic
import Mathlib.Tactic.Linarith
import Mathlib.Tactic.FieldSimp
import Mathlib.Tactic.Ring
/-! # Lemmas: HDF5 readers -/

namespace Pgkyl.H5
open Spec

section choice
variable {F : Type}

theorem compatible_iff (f : Bytes) :
    (GkylReader.compatible f).isSome ↔ ∃ rest, f = [103, 107, 121, 108, 48] ++ rest ∧ 8 ≤ rest.length := by
  have hread : ∀ r : Bytes, (∃ v, readI ([103, 107, 121, 108, 48] ++ r) 5 = .ok v) ↔ 8 ≤ r.length := by
    intro r
    simp only [readI, fromfile, show ¬ ((1 : Int) < 0) by decide, if_false, Int.toNat_one, chunks]
    by_cases h : r.length < 8
    · simp [h]
    · simp [h]; omega
  rw [GkylReader.compatible]
  constructor
  · intro h
    split at h
    · next hm =>
      refine ⟨f.drop 5, ?_, ?_⟩
      · conv_lhs => rw [← List.take_append_drop 5 f]
        rw [hm]; rfl
      · rw [← hread]
        have hf : f = [103, 107, 121, 108, 48] ++ f.drop 5 := by
          conv_lhs => rw [← List.take_append_drop 5 f]
          rw [hm]; rfl
        rw [← hf]
        split at h
        · next v hv => exact ⟨v, hv⟩
        · simp at h
    · simp at h
  · rintro ⟨rest, rfl, hr⟩
    obtain ⟨v, hv⟩ := (hread rest).2 hr
    rw [if_pos (by simp [GkylReader.magic]), hv]; rfl

theorem isCompatible_iff (m : Medium F) (k : Kind) (b : Bool) (h : isCompatible m k = .ok b) :
    b = true ↔ Recognises m k := by
  cases k with
  | gkyl =>
    simp only [isCompatible, Except.ok.injEq] at h
    rw [← h]; exact compatible_iff _
  | adios =>
    simp only [isCompatible] at h
    simp only [Recognises, h, Except.ok.injEq]
  | h5 =>
    simp only [isCompatible] at h
    cases hh : m.hdf with
    | none => rw [hh] at h; simp only [Except.ok.injEq] at h; subst h; simp [Recognises, hh]
    | some f =>
      rw [hh] at h; simp only [Except.ok.injEq] at h; subst h
      simp [Recognises, hh, Option.isSome_iff_ne_none]
  | flash =>
    simp only [isCompatible] at h
    cases hh : m.hdf with
    | none => rw [hh] at h; simp only [Except.ok.injEq] at h; subst h; simp [Recognises, hh]
    | some f =>
      rw [hh] at h; simp only [Except.ok.injEq] at h; subst h
      simp [Recognises, hh, Option.isSome_iff_ne_none]

theorem isCompatible_ok (m : Medium F) (k : Kind) (h : k = .adios → ∃ b, m.adios = .ok b) : ∃ b, isCompatible m k = .ok b := by
  cases k with
  | gkyl => exact ⟨_, rfl⟩
  | adios => exact h rfl
  | h5 => simp only [isCompatible]; cases m.hdf <;> exact ⟨_, rfl⟩
  | flash => simp only [isCompatible]; cases m.hdf <;> exact ⟨_, rfl⟩

/-- The loop returns the first reader of the list that recognises the file. -/
theorem first_some (m : Medium F) (l r : List (String × Kind)) (p : String × Kind)
    (hok : ∀ q ∈ l ++ [p], q.2 = .adios → ∃ b, m.adios = .ok b)
    (hl : ∀ q ∈ l, ¬ Recognises m q.2) (hp : Recognises m p.2) :
    firstCompatible m (l ++ p :: r) = .ok (some p.2) := by
  induction l with
  | nil =>
    obtain ⟨b, hb⟩ := isCompatible_ok m p.2 (hok p (by simp))
    have : b = true := (isCompatible_iff m _ b hb).2 hp
    subst this
    simp only [List.nil_append, firstCompatible, bind, Except.bind, hb, if_true, pure, Except.pure]
  | cons q l ih =>
    obtain ⟨b, hb⟩ := isCompatible_ok m q.2 (hok q (by simp))
    have : b = false := by
      cases b with
      | false => rfl
      | true => exact absurd ((isCompatible_iff m _ true hb).1 rfl) (hl q (by simp))
    subst this
    simp only [List.cons_append, firstCompatible, bind, Except.bind, hb]
    exact ih (fun q hq => hok q (by simp at hq ⊢; tauto)) (fun q hq => hl q (by simp [hq]))

theorem first_none (m : Medium F) (l : List (String × Kind))
    (hok : ∀ q ∈ l, q.2 = .adios → ∃ b, m.adios = .ok b) (hl : ∀ q ∈ l, ¬ Recognises m q.2) :
    firstCompatible m l = .ok none := by
  induction l with
  | nil => rfl
  | cons q l ih =>
    obtain ⟨b, hb⟩ := isCompatible_ok m q.2 (hok q (by simp))
    have : b = false := by
      cases b with
      | false => rfl
      | true => exact absurd ((isCompatible_iff m _ true hb).1 rfl) (hl q (by simp))
    subst this
    simp only [firstCompatible, bind, Except.bind, hb]
    exact ih (fun q hq => hok q (by simp [hq])) (fun q hq => hl q (by simp [hq]))

theorem candidates_named (k : Kind) : candidates (readerName k) = [(readerName k, k)] := by
  cases k <;> decide +kernel

theorem candidates_other (name : String) (h : ∀ k, name ≠ readerName k) : candidates name = readers := by
  have : readers.find? (fun p => p.1 = name) = none := by
    rw [List.find?_eq_none]
    intro p hp
    simp only [readers, List.mem_cons, List.not_mem_nil, or_false] at hp
    simp only [decide_eq_true_eq]
    rcases hp with rfl | rfl | rfl | rfl
    · exact fun e => h .gkyl e.symm
    · exact fun e => h .adios e.symm
    · exact fun e => h .h5 e.symm
    · exact fun e => h .flash e.symm
  rw [candidates, this]

theorem readers_split (k : Kind) : ∃ l r, readers = l ++ (readerName k, k) :: r ∧
    ∀ q, q ∈ l ↔ (q = (readerName q.2, q.2) ∧ readerRank q.2 < readerRank k) := by
  cases k
  · exact ⟨[], readers.drop 1, rfl, fun q => by simp [readerRank]⟩
  · refine ⟨readers.take 1, readers.drop 2, rfl, fun ⟨a, q⟩ => ?_⟩
    cases q <;> simp [readerRank, readers, readerName]
  · refine ⟨readers.take 2, readers.drop 3, rfl, fun ⟨a, q⟩ => ?_⟩
    cases q <;> simp [readerRank, readers, readerName]
  · refine ⟨readers.take 3, [], rfl, fun ⟨a, q⟩ => ?_⟩
    cases q <;> simp [readerRank, readers, readerName]

end choice

/-! ### Frames -/

section frames
variable {F : Type} [_root_.Field F] [CharZero F]

theorem nodes_ok (cells : List Nat) (lower upper : List F) (hl : lower.length = cells.length)
    (hu : upper.length = cells.length) (hc : ∀ n ∈ cells, 0 < n) :
    ∃ g, nodes cells lower upper = .ok g ∧ g.length = cells.length ∧
      ∀ (c n : Nat) (lo up : F), cells[c]? = some n → lower[c]? = some lo → upper[c]? = some up →
        ∃ a : NArr F, g[c]? = some a ∧ a.shape = [n + 1] ∧
          ∀ i ≤ n, a.get? [i] = some (lo + (i : F) * ((up - lo) / (n : F))) := by
  refine ⟨_, by rw [nodes, if_neg (by omega)], by simp [hl, hu], ?_⟩
  intro c n lo up h1 h2 h3
  refine ⟨NArr.ofList (GkylReader.linspace lo up (n + 1)), ?_, ?_, ?_⟩
  · rw [List.getElem?_map]
    have : (List.zip (List.zip lower upper) cells)[c]? = some ((lo, up), n) := by
      simp [List.zip, List.getElem?_zipWith, h1, h2, h3]
    rw [this]; rfl
  · simp [NArr.ofList, GkylReader.linspace_length]
  · intro i hi
    have hn : 0 < n := hc n (List.mem_of_getElem? h1)
    have := GkylReader.linspace_get lo up hn hi
    simp only [NArr.ofList, NArr.get?, GkylReader.linspace_length, inRange, ravel]
    rw [if_pos (by simp; omega)]
    simpa using this

/-- The axes built from bounds and cell numbers. -/
def axesOf : List F → List F → List Nat → List (NArr F)
  | lo :: ls, up :: us, n :: ns => NArr.ofList (GkylReader.linspace lo up (n + 1)) :: axesOf ls us ns
  | _, _, _ => []

omit [CharZero F] in
theorem axesOf_eq : ∀ (lower upper : List F) (cells : List Nat),
    ((List.zip (List.zip lower upper) cells).map fun p => NArr.ofList (GkylReader.linspace p.1.1 p.1.2 (p.2 + 1))) =
      axesOf lower upper cells
  | lo :: ls, up :: us, n :: ns => by
    simp only [List.zip_cons_cons, List.map_cons, axesOf, List.cons.injEq, true_and]
    exact axesOf_eq ls us ns
  | [], _, _ => by simp [axesOf]
  | _ :: _, [], _ => by simp [axesOf]
  | _ :: _, _ :: _, [] => by simp [axesOf]

variable [LinearOrder F] [IsStrictOrderedRing F]

omit [CharZero F] in
theorem linspace_between (lo up : F) (hle : lo ≤ up) {n : Nat} (hn : 0 < n) :
    (GkylReader.linspace lo up (n + 1)).min? = some lo ∧ (GkylReader.linspace lo up (n + 1)).max? = some up := by
  have hn' : (0 : F) < n := by exact_mod_cast hn
  have key : ∀ s ∈ GkylReader.linspace lo up (n + 1), lo ≤ s ∧ s ≤ up := by
    intro s hs
    obtain ⟨i, hi, e⟩ := List.mem_iff_getElem.1 hs
    rw [GkylReader.linspace_length] at hi
    have := GkylReader.linspace_get lo up hn (i := i) (by omega)
    rw [List.getElem?_eq_getElem (by rw [GkylReader.linspace_length]; omega), Option.some.injEq] at this
    rw [← e, this]
    have hi' : (i : F) ≤ n := by exact_mod_cast (by omega : i ≤ n)
    have h0 : (0 : F) ≤ i := by positivity
    have e : (i : F) * ((up - lo) / n) = (i / n) * (up - lo) := by ring
    have h1 : (i : F) / n ≤ 1 := by rw [div_le_one hn']; exact hi'
    have h2 : (0 : F) ≤ i / n := by positivity
    rw [e]
    constructor <;> nlinarith
  have hmem : ∀ i ≤ n, ∀ z, lo + (i : F) * ((up - lo) / (n : F)) = z → z ∈ GkylReader.linspace lo up (n + 1) := by
    intro i hi z hz
    have := GkylReader.linspace_get lo up hn hi
    rw [hz] at this
    exact List.mem_of_getElem? this
  constructor
  · rw [List.min?_eq_some_iff]
    exact ⟨hmem 0 (by omega) lo (by simp), fun s hs => (key s hs).1⟩
  · rw [List.max?_eq_some_iff]
    exact ⟨hmem n le_rfl up (by field_simp; ring), fun s hs => (key s hs).2⟩

omit [CharZero F] in
theorem extrema_axes : ∀ (cells : List Nat) (lower upper : List F), lower.length = cells.length →
    upper.length = cells.length → (∀ n ∈ cells, 0 < n) →
    (∀ (c : Nat) (lo up : F), lower[c]? = some lo → upper[c]? = some up → lo ≤ up) →
    GData.minima cells.length (axesOf lower upper cells) = .ok lower ∧
    GData.maxima cells.length (axesOf lower upper cells) = .ok upper
  | [], [], [], _, _, _, _ => ⟨rfl, rfl⟩
  | n :: ns, lo :: ls, up :: us, hl, hu, hc, ho => by
    have ih := extrema_axes ns ls us (by simpa using hl) (by simpa using hu) (fun m hm => hc m (by simp [hm]))
      (fun c a b h1 h2 => ho (c + 1) a b (by simpa using h1) (by simpa using h2))
    have hb := linspace_between lo up (ho 0 lo up rfl rfl) (hc n (by simp))
    simp only [List.length_cons, axesOf, GData.minima, GData.maxima, NArr.ofList, hb.1, hb.2, ih.1, ih.2, bind, Except.bind,
      pure, Except.pure, and_self]
  | [], _ :: _, _, h, _, _, _ => by simp at h
  | [], [], _ :: _, _, h, _, _ => by simp at h
  | _ :: _, [], _, h, _, _, _ => by simp at h
  | _ :: _, _ :: _, [], _, h, _, _ => by simp at h

end frames

/-! ### FLASH -/

section fold

/-- Point values of a sequence of partial updates: the last update that hits the point decides. -/
theorem foldl_last {α β : Type} {R : α → α → Prop} (P : α → Prop) [DecidablePred P] (v : α → β) :
    ∀ (l : List α) (g : β) (c : α), l.Pairwise R → c ∈ l → P c → (∀ c' ∈ l, R c c' → ¬ P c') →
      l.foldl (fun acc a => if P a then v a else acc) g = v c := by
  intro l
  induction l with
  | nil => intro g c _ h; simp at h
  | cons a l ih =>
    intro g c hR hc hP hno
    rw [List.pairwise_cons] at hR
    rw [List.foldl_cons]
    by_cases hcl : c ∈ l
    · exact ih _ c hR.2 hcl hP (fun c' h => hno c' (by simp [h]))
    · have hca : c = a := by simpa [hcl] using hc
      subst hca
      rw [if_pos hP]
      have : ∀ (l' : List α) (b : β), (∀ c' ∈ l', ¬ P c') → l'.foldl (fun acc a => if P a then v a else acc) b = b := by
        intro l'
        induction l' with
        | nil => intros; rfl
        | cons x l' ih' =>
          intro b hx
          rw [List.foldl_cons, if_neg (hx x (by simp))]
          exact ih' b (fun c' h => hx c' (by simp [h]))
      exact this l _ (fun c' h => hno c' (by simp [h]) (hR.1 c' h))

theorem foldl_miss {α β : Type} (P : α → Prop) [DecidablePred P] (v : α → β) :
    ∀ (l : List α) (g : β), (∀ c ∈ l, ¬ P c) → l.foldl (fun acc a => if P a then v a else acc) g = g := by
  intro l
  induction l with
  | nil => intros; rfl
  | cons x l ih =>
    intro g hx
    rw [List.foldl_cons, if_neg (hx x (by simp))]
    exact ih g (fun c' h => hx c' (by simp [h]))

end fold

section flash
variable {F : Type} [_root_.Field F] [LinearOrder F] [FloorRing F]

/-- The array has `Nx × Ny` entries, given by `g`. -/
def Holds (a : NArr F) (Nx Ny : Nat) (g : Nat → Nat → F) : Prop :=
  a.shape = [Nx, Ny] ∧ ∀ x y, x < Nx → y < Ny → a.get? [x, y] = some (g x y)

omit [FloorRing F] [LinearOrder F] [_root_.Field F] in
theorem fill_holds {a : NArr F} {Nx Ny : Nat} {g : Nat → Nat → F} (h : Holds a Nx Ny g) (x0 x1 y0 y1 : Int) (v : F) :
    Holds (fill a x0 x1 y0 y1 v) Nx Ny
      (fun x y => if x0 ≤ (x : Int) ∧ (x : Int) < x1 ∧ y0 ≤ (y : Int) ∧ (y : Int) < y1 then v else g x y) := by
  refine ⟨h.1, fun x y hx hy => ?_⟩
  rw [fill, h.1, NArr.ofFn_get?]
  · simp only [List.getD_cons_zero, List.getD_cons_succ]
    split
    · rfl
    · exact h.2 x y hx hy
  · intro idx hidx
    split
    · rfl
    · match idx, hidx with
      | [x', y'], hidx =>
        simp only [inRange, Bool.and_true, Bool.and_eq_true, decide_eq_true_eq] at hidx
        rw [h.2 x' y' hidx.1 hidx.2]; rfl
      | [], hidx => simp [inRange] at hidx
      | [_], hidx => simp [inRange] at hidx
      | _ :: _ :: _ :: _, hidx => simp [inRange] at hidx
  · simp [inRange, hx, hy]

omit [FloorRing F] [LinearOrder F] in
/-- The value a block's cell loop leaves at a point. -/
theorem cells_holds (f : Flash F) (mx my X Y : Int) (b : Nat) (l : List (Nat × Nat)) :
    ∀ {a : NArr F} {Nx Ny : Nat} {g : Nat → Nat → F}, Holds a Nx Ny g →
      Holds (l.foldl (fillCell f mx my X Y b) a) Nx Ny (fun x y => l.foldl (fun acc (ij : Nat × Nat) =>
        if X + ij.1 * mx ≤ (x : Int) ∧ (x : Int) < X + (ij.1 + 1) * mx + 1 ∧
          Y + ij.2 * my ≤ (y : Int) ∧ (y : Int) < Y + (ij.2 + 1) * my + 1
        then (f.var.get? [b, 0, ij.2, ij.1]).getD 0 else acc) (g x y)) := by
  induction l with
  | nil => intro a Nx Ny g h; exact h
  | cons c l ih =>
    intro a Nx Ny g h
    simp only [List.foldl_cons]
    exact ih (fill_holds h _ _ _ _ _)

theorem cellOrder_pairwise (nxb nyb : Nat) :
    (cellOrder nxb nyb).Pairwise (fun a b => a.1 < b.1 ∨ (a.1 = b.1 ∧ a.2 < b.2)) := by
  rw [cellOrder, List.pairwise_flatMap]
  refine ⟨fun i _ => ?_, ?_⟩
  · rw [List.pairwise_map]
    exact List.pairwise_lt_range.imp fun h => Or.inr ⟨rfl, h⟩
  · refine List.pairwise_lt_range.imp fun {i i'} h x hx y hy => ?_
    simp only [List.mem_map] at hx hy
    obtain ⟨_, _, rfl⟩ := hx
    obtain ⟨_, _, rfl⟩ := hy
    exact Or.inl h

theorem mem_cellOrder {nxb nyb i j : Nat} : (i, j) ∈ cellOrder nxb nyb ↔ i < nxb ∧ j < nyb := by
  simp [cellOrder]

variable [IsStrictOrderedRing F]

omit [LinearOrder F] [FloorRing F] [IsStrictOrderedRing F] in
theorem mem_column {f : Flash F} {n d : Nat} {s : F} : s ∈ column f.size n d ↔ ∃ b < n, blockSize f d b = s := by
  simp [column, blockSize]

omit [LinearOrder F] [FloorRing F] [IsStrictOrderedRing F] in
theorem lowerEdges_eq (f : Flash F) (n d : Nat) : lowerEdges f n d = (List.range n).map (blockEdge f d) := by
  simp only [lowerEdges, column, List.zipWith_map, List.zipWith_self]
  apply List.map_congr_left
  intro b _
  simp [blockEdge, blockSize]

omit [IsStrictOrderedRing F] in
theorem upperEdges_eq (f : Flash F) (n d : Nat) :
    upperEdges f n d = (List.range n).map fun b => blockEdge f d b + blockSize f d b := by
  simp only [upperEdges, column, List.zipWith_map, List.zipWith_self, blockEdge, blockSize]
  apply List.map_congr_left
  intro b _
  push_cast
  ring

theorem axis_ok {f : Flash F} {n nb d : Nat} {lo h : F} {N : Nat} (H : OnLattice f n nb d lo h N) :
    axis f n nb d = .ok ⟨nb * h, lo, lo + N * h, N⟩ := by
  have hnb : (0 : F) < nb := by exact_mod_cast H.nb_pos
  have h1 : (column f.size n d).min? = some (nb * h) := by
    rw [List.min?_eq_some_iff]
    refine ⟨mem_column.2 H.finest, fun s hs => ?_⟩
    obtain ⟨b, hb, rfl⟩ := mem_column.1 hs
    obtain ⟨m, hm, e⟩ := H.size b hb
    rw [e]
    have : (1 : F) ≤ m := by exact_mod_cast hm
    have := mul_pos hnb H.pos
    nlinarith
  have h2 : (lowerEdges f n d).min? = some lo := by
    rw [List.min?_eq_some_iff, lowerEdges_eq]
    refine ⟨by simpa using H.start, fun s hs => ?_⟩
    simp only [List.mem_map, List.mem_range] at hs
    obtain ⟨b, hb, rfl⟩ := hs
    obtain ⟨k, e⟩ := H.edge b hb
    rw [e]
    have : (0 : F) ≤ k := by positivity
    have := mul_nonneg this H.pos.le
    linarith
  have h3 : (upperEdges f n d).max? = some (lo + N * h) := by
    rw [List.max?_eq_some_iff, upperEdges_eq]
    refine ⟨by simpa using H.stop, fun s hs => ?_⟩
    simp only [List.mem_map, List.mem_range] at hs
    obtain ⟨b, hb, rfl⟩ := hs
    exact H.bound b hb
  rw [axis, h1, h2, h3]
  have h0 := H.pos.ne'
  have : (lo + N * h - lo) / (nb * h / (nb : F)) = ((N : Int) : F) := by
    push_cast; field_simp; ring
  simp only [this, Int.floor_intCast]

theorem mult_ok {f : Flash F} {nb d b m : Nat} {lo up h : F} {N : Int} (hh : 0 < h) (hnb : 0 < nb)
    (hs : blockSize f d b = m * (nb * h)) : mult f ⟨nb * h, lo, up, N⟩ d b = m := by
  have hnb : (0 : F) < nb := by exact_mod_cast hnb
  have h0 := (mul_pos hnb hh).ne'
  have : (f.size.get? [b, d]).getD 0 / (nb * h) = ((m : Int) : F) := by
    change blockSize f d b / _ = _
    rw [hs, mul_div_assoc, div_self h0]; simp
  simp only [mult, this, Int.ceil_intCast]

theorem first_ok {f : Flash F} {nb d b k : Nat} {lo up h : F} {N : Int} (hh : 0 < h) (hnb : 0 < nb)
    (hs : blockEdge f d b = lo + k * h) : first f ⟨nb * h, lo, up, N⟩ nb d b = k := by
  have hnb : (0 : F) < nb := by exact_mod_cast hnb
  have h0 := hh.ne'
  have : ((f.coord.get? [b, d]).getD 0 - (f.size.get? [b, d]).getD 0 / ((2 : Int) : F) - lo) / (nb * h) * (nb : F) =
      ((k : Int) : F) := by
    have e : (f.coord.get? [b, d]).getD 0 - (f.size.get? [b, d]).getD 0 / ((2 : Int) : F) = blockEdge f d b := by
      simp [blockEdge, blockSize]
    rw [e, hs]; push_cast; field_simp; ring
  simp only [first, this, Int.floor_intCast]

/-- Index form of the geometric statements. -/
theorem inCell_iff {f : Flash F} {nb d b m k x i : Nat} {lo h : F} (hh : 0 < h) (hnb : 0 < nb)
    (hs : blockSize f d b = m * (nb * h)) (he : blockEdge f d b = lo + k * h) :
    InCell f nb d lo h x b i ↔ k + i * m ≤ x ∧ x < k + (i + 1) * m := by
  have hnb : (nb : F) ≠ 0 := by exact_mod_cast hnb.ne'
  have e : blockSize f d b / nb = m * h := by rw [hs]; field_simp
  rw [InCell, e, he]
  have a1 : lo + k * h + i * (m * h) = lo + ((k + i * m : Nat) : F) * h := by push_cast; ring
  have a2 : lo + k * h + ((i + 1 : Nat) : F) * (m * h) = lo + ((k + (i + 1) * m : Nat) : F) * h := by push_cast; ring
  rw [a1, a2, add_le_add_iff_left, add_le_add_iff_left, mul_le_mul_iff_left₀ hh, mul_le_mul_iff_left₀ hh, Nat.cast_le,
    Nat.cast_le]
  omega

theorem reaches_iff {f : Flash F} {nb d b m k x : Nat} {lo h : F} (hh : 0 < h)
    (hs : blockSize f d b = m * (nb * h)) (he : blockEdge f d b = lo + k * h) :
    Reaches f d lo h x b ↔ k ≤ x ∧ x ≤ k + nb * m := by
  rw [Reaches, hs, he]
  have a2 : lo + k * h + m * (nb * h) = lo + ((k + nb * m : Nat) : F) * h := by push_cast; ring
  rw [a2, add_le_add_iff_left, add_le_add_iff_left, mul_le_mul_iff_left₀ hh, mul_le_mul_iff_left₀ hh, Nat.cast_le,
    Nat.cast_le]

theorem inBlock_iff {f : Flash F} {nb d b m k x : Nat} {lo h : F} (hh : 0 < h)
    (hs : blockSize f d b = m * (nb * h)) (he : blockEdge f d b = lo + k * h) :
    InBlock f d lo h x b ↔ k ≤ x ∧ x < k + nb * m := by
  rw [InBlock, hs, he]
  have a2 : lo + k * h + m * (nb * h) = lo + ((k + nb * m : Nat) : F) * h := by push_cast; ring
  rw [a2, add_le_add_iff_left, add_le_add_iff_left, mul_le_mul_iff_left₀ hh, mul_le_mul_iff_left₀ hh, Nat.cast_le,
    Nat.cast_le]
  omega

/-- What one leaf block leaves at a point of the array. -/
def blockValue (f : Flash F) (mx my X Y : Nat) (nxb nyb b x y : Nat) (old : F) : F :=
  (cellOrder nxb nyb).foldl (fun acc (ij : Nat × Nat) =>
    if (X : Int) + ij.1 * (mx : Int) ≤ (x : Int) ∧ (x : Int) < X + (ij.1 + 1) * (mx : Int) + 1 ∧
      (Y : Int) + ij.2 * (my : Int) ≤ (y : Int) ∧ (y : Int) < Y + (ij.2 + 1) * (my : Int) + 1
    then (f.var.get? [b, 0, ij.2, ij.1]).getD 0 else acc) old

omit [FloorRing F] [LinearOrder F] [IsStrictOrderedRing F] in
theorem blockValue_in (f : Flash F) {mx my X Y nxb nyb b x y i j : Nat} (hi : i < nxb) (hj : j < nyb) (old : F)
    (hx : X + i * mx ≤ x ∧ x < X + (i + 1) * mx) (hy : Y + j * my ≤ y ∧ y < Y + (j + 1) * my) :
    blockValue f mx my X Y nxb nyb b x y old = (f.var.get? [b, 0, j, i]).getD 0 := by
  rw [blockValue, foldl_last _ _ _ _ (i, j) (cellOrder_pairwise nxb nyb) (mem_cellOrder.2 ⟨hi, hj⟩)]
  · obtain ⟨a, b⟩ := hx
    obtain ⟨c, d⟩ := hy
    zify at a b c d
    refine ⟨a, ?_, c, ?_⟩ <;> dsimp only <;> omega
  · rintro ⟨i', j'⟩ _ hR ⟨h1, _, h3, _⟩
    dsimp only at hR h1 h3
    norm_cast at h1 h3
    rcases hR with hR | ⟨_, hR⟩
    · have := Nat.mul_le_mul_right mx (Nat.succ_le_of_lt hR)
      simp only [Nat.succ_eq_add_one] at this
      omega
    · have := Nat.mul_le_mul_right my (Nat.succ_le_of_lt hR)
      simp only [Nat.succ_eq_add_one] at this
      omega

omit [FloorRing F] [LinearOrder F] [IsStrictOrderedRing F] in
theorem blockValue_out (f : Flash F) {mx my X Y nxb nyb b x y : Nat} (old : F)
    (h : ¬ ((X ≤ x ∧ x ≤ X + nxb * mx) ∧ (Y ≤ y ∧ y ≤ Y + nyb * my))) :
    blockValue f mx my X Y nxb nyb b x y old = old := by
  rw [blockValue, foldl_miss]
  rintro ⟨i, j⟩ hm ⟨h1, h2, h3, h4⟩
  obtain ⟨hi, hj⟩ := mem_cellOrder.1 hm
  dsimp only at h1 h2 h3 h4
  norm_cast at h1 h2 h3 h4
  have a := Nat.mul_le_mul_right mx (Nat.succ_le_of_lt hi)
  have b := Nat.mul_le_mul_right my (Nat.succ_le_of_lt hj)
  simp only [Nat.succ_eq_add_one] at a b
  apply h
  refine ⟨⟨?_, by omega⟩, ⟨?_, by omega⟩⟩
  · have := Nat.le_add_right X (i * mx); omega
  · have := Nat.le_add_right Y (j * my); omega

/-- The blocks in index form: position and magnification along each direction. -/
structure Placed (f : Flash F) (n nb d : Nat) (lo h : F) (N : Nat) (X M : Nat → Nat) : Prop where
  lat : OnLattice f n nb d lo h N
  size : ∀ b < n, blockSize f d b = M b * (nb * h)
  edge : ∀ b < n, blockEdge f d b = lo + X b * h

omit [FloorRing F] [IsStrictOrderedRing F] in
theorem placed {f : Flash F} {n nb d : Nat} {lo h : F} {N : Nat} (H : OnLattice f n nb d lo h N) :
    ∃ X M, Placed f n nb d lo h N X M := by
  have h1 : ∀ b, ∃ m : Nat, b < n → blockSize f d b = m * (nb * h) := fun b => by
    by_cases hb : b < n
    · obtain ⟨m, _, e⟩ := H.size b hb; exact ⟨m, fun _ => e⟩
    · exact ⟨0, fun h => absurd h hb⟩
  have h2 : ∀ b, ∃ k : Nat, b < n → blockEdge f d b = lo + k * h := fun b => by
    by_cases hb : b < n
    · obtain ⟨m, e⟩ := H.edge b hb; exact ⟨m, fun _ => e⟩
    · exact ⟨0, fun h => absurd h hb⟩
  choose M hM using h1
  choose X hX using h2
  exact ⟨X, M, H, hM, hX⟩

/-- One step of the loop over the blocks, pointwise. -/
def blockStep (f : Flash F) (nxb nyb : Nat) (X MX Y MY : Nat → Nat) (x y : Nat) (acc : F) (b : Nat) : F :=
  if f.ntype[b]? = some 1 then blockValue f (MX b) (MY b) (X b) (Y b) nxb nyb b x y acc else acc

theorem blocks_holds {f : Flash F} {n nxb nyb : Nat} {lox hx loy hy : F} {Nx Ny : Nat} {X MX Y MY : Nat → Nat}
    (HX : Placed f n nxb 0 lox hx Nx X MX) (HY : Placed f n nyb 1 loy hy Ny Y MY) (l : List Nat) :
    (∀ b ∈ l, b < n) → ∀ {a : NArr F} {g : Nat → Nat → F}, Holds a Nx Ny g →
      Holds (l.foldl (fillBlock f ⟨nxb * hx, lox, lox + Nx * hx, Nx⟩ ⟨nyb * hy, loy, loy + Ny * hy, Ny⟩ nxb nyb) a) Nx Ny
        (fun x y => l.foldl (blockStep f nxb nyb X MX Y MY x y) (g x y)) := by
  induction l with
  | nil => intro _ a g h; exact h
  | cons b l ih =>
    intro hl a g h
    simp only [List.foldl_cons]
    apply ih (fun b' hb' => hl b' (by simp [hb']))
    have hb := hl b (by simp)
    unfold fillBlock blockStep
    split
    · rw [mult_ok HX.lat.pos HX.lat.nb_pos (HX.size b hb), mult_ok HY.lat.pos HY.lat.nb_pos (HY.size b hb),
        first_ok HX.lat.pos HX.lat.nb_pos (HX.edge b hb), first_ok HY.lat.pos HY.lat.nb_pos (HY.edge b hb)]
      exact cells_holds f _ _ _ _ b _ h
    · exact h

omit [FloorRing F] [LinearOrder F] [IsStrictOrderedRing F] in
theorem zeros_holds (Nx Ny : Nat) : Holds (⟨[Nx, Ny], List.replicate (Nx * Ny) 0⟩ : NArr F) Nx Ny (fun _ _ => 0) := by
  refine ⟨rfl, fun x y hx hy => ?_⟩
  have : x * Ny + y < Nx * Ny := by
    have := Nat.mul_le_mul_right Ny (Nat.succ_le_of_lt hx)
    simp only [Nat.succ_eq_add_one, Nat.add_mul] at this
    omega
  simp [NArr.get?, inRange, ravel, hx, hy, this]

/-- The result of reading a FLASH file whose blocks lie on a lattice. -/
theorem flashData_ok {f : Flash F} {n nzb nxb nyb : Nat} {lox hx loy hy : F} {Nx Ny : Nat} {X MX Y MY : Nat → Nat}
    (hs : f.var.shape = [n, nzb, nyb, nxb])
    (HX : Placed f n nxb 0 lox hx Nx X MX) (HY : Placed f n nyb 1 loy hy Ny Y MY) :
    ∃ v, flashData f = .ok ([NArr.ofList (GkylReader.linspace lox (lox + Nx * hx) (Nx + 1)),
        NArr.ofList (GkylReader.linspace loy (loy + Ny * hy) (Ny + 1))], v) ∧ v.shape = [Nx, Ny, 1] ∧
      ∀ x y, x < Nx → y < Ny → v.get? [x, y, 0] =
        some ((List.range n).foldl (blockStep f nxb nyb X MX Y MY x y) 0) := by
  have hb := blocks_holds HX HY (List.range n) (fun b hb => List.mem_range.1 hb) (zeros_holds Nx Ny)
  generalize harr : (List.range n).foldl (fillBlock f ⟨nxb * hx, lox, lox + Nx * hx, Nx⟩ ⟨nyb * hy, loy, loy + Ny * hy, Ny⟩
    nxb nyb) ⟨[Nx, Ny], List.replicate (Nx * Ny) 0⟩ = a at hb
  refine ⟨⟨a.shape ++ [1], a.data⟩, ?_, ?_, ?_⟩
  · rw [flashData, hs]
    simp only [axis_ok HX.lat, axis_ok HY.lat, bind, Except.bind, pure, Except.pure, Int.toNat_natCast]
    rw [if_neg (by omega), harr]
  · simp [hb.1]
  · intro x y hx hy
    have := hb.2 x y hx hy
    simp only [NArr.get?, hb.1] at this ⊢
    simp only [inRange, hx, hy, ravel, List.prod_cons, List.prod_nil, decide_true, Bool.and_true, if_true, mul_one,
      List.cons_append, List.nil_append, Nat.lt_one_iff, add_zero] at this ⊢
    exact this

omit [FloorRing F] [LinearOrder F] [IsStrictOrderedRing F] in
/-- The loop over the blocks leaves the value of the last leaf block that reaches the point. -/
theorem blocks_last {f : Flash F} {n nxb nyb : Nat} {X MX Y MY : Nat → Nat} {x y b i j : Nat} (hb : b < n)
    (hleaf : f.ntype[b]? = some 1) (hi : i < nxb) (hj : j < nyb)
    (hx : X b + i * MX b ≤ x ∧ x < X b + (i + 1) * MX b) (hy : Y b + j * MY b ≤ y ∧ y < Y b + (j + 1) * MY b)
    (hlater : ∀ b', b < b' → b' < n → f.ntype[b']? = some 1 →
      ¬ ((X b' ≤ x ∧ x ≤ X b' + nxb * MX b') ∧ (Y b' ≤ y ∧ y ≤ Y b' + nyb * MY b'))) (g : F) :
    (List.range n).foldl (blockStep f nxb nyb X MX Y MY x y) g = (f.var.get? [b, 0, j, i]).getD 0 := by
  have : ∀ k, b < k → k ≤ n → (List.range k).foldl (blockStep f nxb nyb X MX Y MY x y) g = (f.var.get? [b, 0, j, i]).getD 0 := by
    intro k hk
    induction k, hk using Nat.le_induction with
    | base =>
      intro _
      rw [List.range_succ, List.foldl_append, List.foldl_cons, List.foldl_nil, blockStep, if_pos hleaf]
      exact blockValue_in f hi hj _ hx hy
    | succ k hk ih =>
      intro hkn
      rw [List.range_succ, List.foldl_append, List.foldl_cons, List.foldl_nil, ih (by omega), blockStep]
      split
      · next hl => exact blockValue_out f _ (hlater k hk (by omega) hl)
      · rfl
  exact this n hb le_rfl

omit [FloorRing F] [LinearOrder F] [IsStrictOrderedRing F] in
theorem blocks_none {f : Flash F} {nxb nyb : Nat} {X MX Y MY : Nat → Nat} {x y : Nat} (g : F) (n : Nat)
    (hno : ∀ b' < n, f.ntype[b']? = some 1 →
      ¬ ((X b' ≤ x ∧ x ≤ X b' + nxb * MX b') ∧ (Y b' ≤ y ∧ y ≤ Y b' + nyb * MY b'))) :
    (List.range n).foldl (blockStep f nxb nyb X MX Y MY x y) g = g := by
  induction n with
  | zero => rfl
  | succ k ih =>
    rw [List.range_succ, List.foldl_append, List.foldl_cons, List.foldl_nil, ih (fun b hb => hno b (by omega)), blockStep]
    split
    · next hl => exact blockValue_out f _ (hno k (by omega) hl)
    · rfl

end flash
end Pgkyl.H5
