import Verif.Lemmas.GkylReader
/-! Lemmas about `_get_block`: it reads exactly the requested sub-block. -/

namespace Pgkyl
namespace GkylReader

/-- number of stored words below the remaining axes -/
def storedSize (nc0 : Nat) (ds : List BlockDim) : Nat := (ds.map BlockDim.num).prod * nc0

/-- number of words read for the remaining axes -/
def readSize (nc : Nat) (ds : List BlockDim) : Nat := (ds.map BlockDim.cells).prod * nc

/-- the sub-block, as words in C order -/
def subFlat (nc c0 nc0 : Nat) : List BlockDim → List Word → List Word
  | [], ws => (ws.drop c0).take nc
  | d :: ds, ws => (List.range d.cells).flatMap fun i =>
      subFlat nc c0 nc0 ds
        ((ws.drop ((d.off0 + i) * storedSize nc0 ds)).take (storedSize nc0 ds))

theorem storedSize_cons (nc0 : Nat) (d : BlockDim) (ds : List BlockDim) :
    storedSize nc0 (d :: ds) = d.num * storedSize nc0 ds := by
  simp [storedSize, Nat.mul_assoc]

theorem readSize_cons (nc : Nat) (d : BlockDim) (ds : List BlockDim) :
    readSize nc (d :: ds) = d.cells * readSize nc ds := by
  simp [readSize, Nat.mul_assoc]

/-- axis data is consistent: skipped + read + skipped = stored -/
def DimsOK (ds : List BlockDim) : Prop := ∀ d ∈ ds, d.off0 + d.cells + d.off1 = d.num

theorem subFlat_length {nc c0 c1 nc0 : Nat} (hc : c0 + nc + c1 = nc0) :
    ∀ (ds : List BlockDim) (ws : List Word), DimsOK ds → ws.length = storedSize nc0 ds →
      (subFlat nc c0 nc0 ds ws).length = readSize nc ds := by
  intro ds
  induction ds with
  | nil =>
    intro ws _ hl
    simp [subFlat, readSize, storedSize] at *
    omega
  | cons d ds ih =>
    intro ws hd hl
    have hdd := hd d (by simp)
    rw [storedSize_cons] at hl
    rw [subFlat, List.length_flatMap, readSize_cons]
    have : ∀ i ∈ List.range d.cells, (subFlat nc c0 nc0 ds ((ws.drop ((d.off0 + i) *
        storedSize nc0 ds)).take (storedSize nc0 ds))).length = readSize nc ds := by
      intro i hi
      apply ih _ (fun e he => hd e (by simp [he]))
      rw [List.length_take, List.length_drop, hl]
      have hi' := List.mem_range.1 hi
      have : (d.off0 + i) * storedSize nc0 ds + storedSize nc0 ds ≤ d.num * storedSize nc0 ds := by
        rw [← Nat.succ_mul]; exact Nat.mul_le_mul_right _ (by omega)
      omega
    rw [List.map_congr_left this]
    simp

/-- the file holds the words `ws` at `off` -/
def Holds (f : Bytes) (dof off : Nat) (ws : List Word) : Prop :=
  (∃ rest, f.drop off = ws.flatten ++ rest) ∧ ∀ w ∈ ws, w.length = dof

theorem Holds.drop {f : Bytes} {dof off : Nat} {ws : List Word} (h : Holds f dof off ws) {k : Nat}
    (hk : k ≤ ws.length) : Holds f dof (off + k * dof) (ws.drop k) := by
  obtain ⟨⟨rest, h1⟩, h2⟩ := h
  refine ⟨⟨rest, ?_⟩, fun w hw => h2 w (List.mem_of_mem_drop hw)⟩
  have : f.drop off = (ws.take k).flatten ++ ((ws.drop k).flatten ++ rest) := by
    rw [← List.append_assoc, ← List.flatten_append, List.take_append_drop, h1]
  have hl : (ws.take k).flatten.length = k * dof := by
    rw [flatten_length (fun w hw => h2 w (List.mem_of_mem_take hw)), List.length_take,
      Nat.min_eq_left hk]
  exact drop_add this hl

theorem Holds.take {f : Bytes} {dof off : Nat} {ws : List Word} (h : Holds f dof off ws) (k : Nat) :
    Holds f dof off (ws.take k) := by
  obtain ⟨⟨rest, h1⟩, h2⟩ := h
  refine ⟨⟨(ws.drop k).flatten ++ rest, ?_⟩, fun w hw => h2 w (List.mem_of_mem_take hw)⟩
  rw [← List.append_assoc, ← List.flatten_append, List.take_append_drop, h1]

theorem Holds.fromfile {f : Bytes} {dof off : Nat} {ws : List Word} (h : Holds f dof off ws) {n : Nat}
    (hn : n ≤ ws.length) : fromfile f dof n off = ws.take n := by
  obtain ⟨⟨rest, h1⟩, h2⟩ := h
  exact fromfile_prefix h1 h2 hn

/-- What reading `n` words `new` at `idx` does to the state. -/
def BlkSt.put (s : BlkSt) (off' : Nat) (new : List Word) : BlkSt :=
  { offset := off', idx := s.idx + new.length,
    out := s.out.take s.idx ++ new ++ s.out.drop (s.idx + new.length) }

theorem BlkSt.put_out_length (s : BlkSt) (off' : Nat) (new : List Word)
    (h : s.idx + new.length ≤ s.out.length) : (s.put off' new).out.length = s.out.length := by
  simp [BlkSt.put]; omega

theorem BlkSt.put_put (s : BlkSt) (o o' : Nat) (a b : List Word)
    (h : s.idx + a.length + b.length ≤ s.out.length) :
    (s.put o a).put o' b = s.put o' (a ++ b) := by
  simp only [BlkSt.put, List.length_append]
  congr 1
  · omega
  · have h1 : (s.out.take s.idx ++ a).length = s.idx + a.length := by simp; omega
    rw [List.take_append_of_le_length (by omega), ← h1, List.take_length,
      List.drop_append, List.drop_drop, h1, Nat.add_sub_cancel_left,
      List.drop_eq_nil_of_le (by omega)]
    simp [Nat.add_assoc]

theorem iterM_blocks (g : BlkSt → Except Err BlkSt) (f : Bytes) (dof R S : Nat)
    (sub : List Word → List Word)
    (hg : ∀ (s : BlkSt) (ws : List Word), Holds f dof s.offset ws → ws.length = R →
      s.idx + S ≤ s.out.length → g s = .ok (s.put (s.offset + R * dof) (sub ws)))
    (hsub : ∀ ws : List Word, ws.length = R → (sub ws).length = S) :
    ∀ (n : Nat) (s : BlkSt) (ws : List Word), Holds f dof s.offset ws → n * R ≤ ws.length →
      s.idx + n * S ≤ s.out.length →
      iterM n g s = .ok (s.put (s.offset + n * R * dof)
        ((List.range n).flatMap fun i => sub ((ws.drop (i * R)).take R))) := by
  intro n
  induction n with
  | zero =>
    intro s ws _ _ hs
    simp only [iterM, List.range_zero, List.flatMap_nil, BlkSt.put, Nat.zero_mul, Nat.add_zero,
      List.length_nil, List.append_nil, List.take_append_drop]
  | succ n ih =>
    intro s ws hh hl hs
    have hR : R ≤ ws.length := by rw [Nat.succ_mul] at hl; omega
    rw [Nat.succ_mul] at hs hl
    have htl : (ws.take R).length = R := by rw [List.length_take]; omega
    have hsl := hsub _ htl
    simp only [iterM, bind, Except.bind]
    rw [hg s (ws.take R) (hh.take R) htl (by omega)]
    simp only
    have hdrop := hh.drop hR
    have hput := s.put_out_length (s.offset + R * dof) (sub (ws.take R)) (by omega)
    have hidx : (s.put (s.offset + R * dof) (sub (ws.take R))).idx = s.idx + S := by
      simp [BlkSt.put, hsl]
    have hfl : ((List.range n).flatMap fun i => sub (((ws.drop R).drop (i * R)).take R)).length
        = n * S := by
      rw [List.length_flatMap, List.map_congr_left (g := fun _ => S)]
      · simp
      · intro i hi
        apply hsub
        have hi' := List.mem_range.1 hi
        rw [List.length_take, List.length_drop, List.length_drop]
        have : i * R + R ≤ n * R := by rw [← Nat.succ_mul]; exact Nat.mul_le_mul_right _ hi'
        omega
    rw [ih _ (ws.drop R) hdrop (by rw [List.length_drop]; omega) (by rw [hput, hidx]; omega)]
    rw [BlkSt.put_put _ _ _ _ _ (by rw [hsl, hfl]; omega)]
    congr 1
    congr 1
    · simp only [BlkSt.put]; ring
    · rw [List.range_succ_eq_map, List.flatMap_cons, List.flatMap_map]
      simp only [Nat.zero_mul, List.drop_zero, List.drop_drop, Nat.succ_mul]
      congr 1
      apply List.flatMap_congr
      intro i _
      rw [Nat.add_comm R]

theorem getBlock_ok {f : Bytes} {dof nc c0 c1 nc0 : Nat} (hc : c0 + nc + c1 = nc0) :
    ∀ (ds : List BlockDim) (s : BlkSt) (ws : List Word), DimsOK ds → Holds f dof s.offset ws →
      ws.length = storedSize nc0 ds → s.idx + readSize nc ds ≤ s.out.length →
      getBlock f dof nc c0 c1 nc0 ds s = .ok (s.put (s.offset + ws.length * dof)
        (subFlat nc c0 nc0 ds ws)) := by
  intro ds
  induction ds with
  | nil =>
    intro s ws _ hh hl hs
    simp only [storedSize, List.map_nil, List.prod_nil, Nat.one_mul] at hl
    simp only [readSize, List.map_nil, List.prod_nil, Nat.one_mul] at hs
    simp only [getBlock, bind, Except.bind]
    rw [(hh.drop (k := c0) (by omega)).fromfile (by rw [List.length_drop]; omega)]
    have hln : ((ws.drop c0).take nc).length = nc := by simp; omega
    rw [assignSlice]
    simp only [hln]
    rw [if_pos (by omega)]
    simp only [pure, Except.pure, subFlat, BlkSt.put, hln]
    rw [Nat.min_eq_left hs]
    congr 2
    rw [hl, ← hc]; ring
  | cons d ds ih =>
    intro s ws hd hh hl hs
    have hdd := hd d (by simp)
    have hd' : DimsOK ds := fun e he => hd e (by simp [he])
    rw [storedSize_cons] at hl
    rw [readSize_cons] at hs
    set R := storedSize nc0 ds with hR
    have hle : d.off0 * R + d.cells * R + d.off1 * R = ws.length := by
      rw [hl, ← hdd]; ring
    have hh1 := hh.drop (k := d.off0 * R) (by omega)
    have hrest : (ds.map BlockDim.num).prod * nc0 = R := rfl
    simp only [getBlock, bind, Except.bind, hrest]
    have hh1' : Holds f dof ({ s with offset := s.offset + d.off0 * R * dof } : BlkSt).offset
      (ws.drop (d.off0 * R)) := hh1
    rw [iterM_blocks (getBlock f dof nc c0 c1 nc0 ds) f dof R (readSize nc ds)
      (subFlat nc c0 nc0 ds)
      (fun s' ws' h1 h2 h3 => by rw [← h2]; exact ih s' ws' hd' h1 h2 h3)
      (fun ws' h => subFlat_length hc ds ws' hd' h)
      d.cells { s with offset := s.offset + d.off0 * R * dof } (ws.drop (d.off0 * R)) hh1'
      (by rw [List.length_drop]; omega) hs]
    simp only [pure, Except.pure, BlkSt.put, subFlat]
    have hfun : (fun i => subFlat nc c0 nc0 ds (((ws.drop (d.off0 * R)).drop (i * R)).take R)) =
        (fun i => subFlat nc c0 nc0 ds ((ws.drop ((d.off0 + i) * R)).take R)) := by
      funext i; rw [List.drop_drop, Nat.add_mul]
    rw [hfun]
    congr 2
    rw [← hle]; ring

/-- element of an array whose first axis is fixed -/
theorem get?_cons {α : Type} {n : Nat} {sh : List Nat} {ws : List α} {i : Nat} {is : List Nat}
    (hi : i < n) :
    (⟨n :: sh, ws⟩ : NArr α).get? (i :: is) =
      (⟨sh, (ws.drop (i * sh.prod)).take sh.prod⟩ : NArr α).get? is := by
  simp only [NArr.get?, inRange, hi, decide_true, Bool.true_and, ravel]
  split
  · rename_i h
    have := ravel_lt h
    rw [List.getElem?_take_of_lt this, List.getElem?_drop]
  · rfl

/-- `_get_block` returns the sub-array: the words it reads are, in C order, the elements of the
stored block at the shifted indices. -/
theorem subFlat_eq {nc c0 c1 nc0 : Nat} (hc : c0 + nc + c1 = nc0) :
    ∀ (ds : List BlockDim) (ws : List Word), DimsOK ds → ws.length = storedSize nc0 ds →
      subFlat nc c0 nc0 ds ws =
        (indices (ds.map BlockDim.cells ++ [nc])).filterMap fun idx =>
          (⟨ds.map BlockDim.num ++ [nc0], ws⟩ : NArr Word).get?
            (List.zipWith (· + ·) idx (ds.map BlockDim.off0 ++ [c0])) := by
  intro ds
  induction ds with
  | nil =>
    intro ws _ hl
    simp only [storedSize, List.map_nil, List.prod_nil, Nat.one_mul] at hl
    simp only [subFlat, List.map_nil, List.nil_append, indices, List.map_cons]
    have h1 : ((List.range nc).flatMap fun i => [[i]]) = (List.range nc).map fun i => [i] := by
      induction List.range nc with
      | nil => rfl
      | cons a l ih => simp [ih]
    rw [h1, List.filterMap_map]
    have h2 : ∀ i ∈ List.range nc, ((fun idx => (⟨[nc0], ws⟩ : NArr Word).get?
        (List.zipWith (· + ·) idx [c0])) ∘ fun i => [i]) i = ((ws.drop c0)[i]?) := by
      intro i hi
      have hi' := List.mem_range.1 hi
      simp only [Function.comp, List.zipWith_cons_cons, List.zipWith_nil_left, NArr.get?, inRange,
        ravel, List.prod_nil, Nat.mul_one, Nat.add_zero, Bool.and_true, decide_eq_true_eq]
      rw [if_pos (by omega), List.getElem?_drop, Nat.add_comm]
    rw [List.filterMap_congr h2]
    have hlen : nc ≤ (ws.drop c0).length := by simp; omega
    generalize ws.drop c0 = l at hlen
    have : ∀ (n : Nat) (l : List Word), n ≤ l.length →
        (List.range n).filterMap (fun i => l[i]?) = l.take n := by
      intro n
      induction n with
      | zero => simp
      | succ n ih =>
        intro l hl
        rw [List.range_succ, List.filterMap_append, ih l (by omega), List.take_add_one]
        congr 1
    rw [this nc l hlen]
  | cons d ds ih =>
    intro ws hd hl
    have hdd := hd d (by simp)
    have hd' : DimsOK ds := fun e he => hd e (by simp [he])
    have hprod : (ds.map BlockDim.num ++ [nc0]).prod = storedSize nc0 ds := by
      simp [storedSize]
    have hl' := hl
    rw [storedSize_cons] at hl
    simp only [subFlat, List.map_cons, List.cons_append, indices]
    rw [List.filterMap_flatMap]
    apply List.flatMap_congr
    intro i hi
    have hi' := List.mem_range.1 hi
    rw [List.filterMap_map]
    rw [ih _ hd' (by
      rw [List.length_take, List.length_drop, hl]
      have : (d.off0 + i) * storedSize nc0 ds + storedSize nc0 ds ≤ d.num * storedSize nc0 ds := by
        rw [← Nat.succ_mul]; exact Nat.mul_le_mul_right _ (by omega)
      omega)]
    apply List.filterMap_congr
    intro idx _
    simp only [Function.comp, List.zipWith_cons_cons]
    rw [get?_cons (by omega), hprod, Nat.add_comm i]

end GkylReader
end Pgkyl
