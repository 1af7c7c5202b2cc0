import Verif.Lemmas.GkylBlock
/-! Lemmas about `_get_data` and the assembly of ranges. -/

namespace Pgkyl
namespace GkylReader

/-- One axis of a read: stored extent `n`, range `lo..up` (1-indexed), left out `g0`/`g1`. -/
structure Ax where
  n : Nat
  lo : Nat
  up : Nat
  g0 : Nat
  g1 : Nat

namespace Ax
variable (a : Ax)
def OK : Prop := 1 ≤ a.lo ∧ a.lo ≤ a.up ∧ a.up ≤ a.n ∧ a.g0 + a.g1 < a.n
/-- intersection of range and window, 0-based -/
def ilo : Nat := max a.g0 (a.lo - 1)
def ihi : Nat := min (a.n - a.g1) a.up
def Hit : Prop := a.ilo < a.ihi
def dim : BlockDim := ⟨a.ilo - (a.lo - 1), a.up - a.ihi, a.up - (a.lo - 1), a.ihi - a.ilo⟩
end Ax

theorem zip4_map {α β : Type} (h : Int → Int × Int → Int → Int → α) (l : List β)
    (f1 : β → Int) (f2 : β → Int × Int) (f3 f4 : β → Int) :
    zip4 h (l.map f1) (l.map f2) (l.map f3) (l.map f4) =
      l.map fun b => h (f1 b) (f2 b) (f3 b) (f4 b) := by
  induction l with
  | nil => rfl
  | cons b l ih => simp [zip4, ih]

theorem blockDim_ax (a : Ax) (h : a.OK) :
    blockDim a.n ((a.g0 : Int), (a.g1 : Int)) a.lo a.up =
      (((a.ilo - (a.lo - 1) : Nat) : Int), ((a.up - min (a.n - a.g1) a.up : Nat) : Int),
        ((a.up - (a.lo - 1) : Nat) : Int), (a.ihi : Int) - a.ilo) := by
  obtain ⟨h1, h2, h3, h4⟩ := h
  simp only [blockDim, clip0, Ax.ilo, Ax.ihi, Prod.mk.injEq]
  omega

theorem blockTarget_ax (a : Ax) (h : a.OK) (hh : a.Hit) :
    blockTarget a.n ((a.g0 : Int), (a.g1 : Int)) a.lo a.up =
      (((a.ilo - a.g0 + 1 : Nat) : Int), ((a.ihi - a.g0 : Nat) : Int)) := by
  obtain ⟨h1, h2, h3, h4⟩ := h
  simp only [Ax.Hit, Ax.ilo, Ax.ihi] at hh
  simp only [blockTarget, clip0, Ax.ilo, Ax.ihi, Prod.mk.injEq]
  omega

/-- The domain seen by the reader for the axes `axs` and components. -/
structure DomIs (d : Dom) (axs : List Ax) (nc0 c0 c1 : Nat) : Prop where
  nd : d.numDims = axs.length
  orig : d.origCells = axs.map fun a => (a.n : Int)
  offs : d.globOffs = axs.map fun a => ((a.g0 : Int), (a.g1 : Int))
  cells : d.cells = axs.map fun a => (((a.n - a.g1 - a.g0 : Nat) : Int))
  oc : d.origComps = nc0
  co : d.compOffs = ((c0 : Int), (c1 : Int))
  nc : d.numComps = ((nc0 - c0 - c1 : Nat) : Int)

/-- Non-partial loads have no offsets. -/
def CfgIs (cfg : Cfg) (axs : List Ax) (c0 c1 : Nat) : Prop :=
  cfg.partialLoad = false → (∀ a ∈ axs, a.g0 = 0 ∧ a.g1 = 0) ∧ c0 = 0 ∧ c1 = 0

/-- the part of the block `B` read by a partial load -/
def partOf (axs : List Ax) (nc c0 : Nat) (B : NArr Word) : NArr Word :=
  NArr.ofFn (axs.map (fun a => a.ihi - a.ilo) ++ [nc]) fun idx =>
    B.get? (List.zipWith (· + ·) idx (axs.map (fun a => a.ilo - (a.lo - 1)) ++ [c0]))

theorem cast_map (axs : List Ax) (g : Ax → Nat) (c : Nat) :
    ((axs.map fun a => (g a : Int)) ++ [(c : Int)]).map Int.toNat = axs.map g ++ [c] := by
  simp [List.map_map, Function.comp_def]

theorem cast_nonneg (axs : List Ax) (g : Ax → Nat) (c : Nat) :
    ((axs.map fun a => (g a : Int)) ++ [(c : Int)]).any (· < 0) = false := by
  simp

theorem reshape_ok {ws : List Word} {axs : List Ax} {g : Ax → Nat} {c : Nat}
    (h : ws.length = (axs.map g ++ [c]).prod) :
    reshape ws ((axs.map fun a => (g a : Int)) ++ [(c : Int)]) = .ok ⟨axs.map g ++ [c], ws⟩ := by
  rw [reshape, cast_nonneg, cast_map]
  simp only [Bool.false_eq_true, if_false]
  rw [if_pos h]

theorem inRange_shift : ∀ (axs : List Ax) (nc0 c0 nc : Nat) (idx : List Nat),
    (∀ a ∈ axs, a.OK ∧ a.Hit) → c0 + nc ≤ nc0 →
    inRange (axs.map (fun a => a.ihi - a.ilo) ++ [nc]) idx = true →
    inRange (axs.map (fun a => a.up - (a.lo - 1)) ++ [nc0])
      (List.zipWith (· + ·) idx (axs.map (fun a => a.ilo - (a.lo - 1)) ++ [c0])) = true := by
  intro axs
  induction axs with
  | nil =>
    intro nc0 c0 nc idx _ hc h
    cases idx with
    | nil => simp [inRange] at h
    | cons i is =>
      cases is with
      | nil => simp [inRange] at *; omega
      | cons => simp [inRange] at h
  | cons a axs ih =>
    intro nc0 c0 nc idx ha hc h
    cases idx with
    | nil => simp [inRange] at h
    | cons i is =>
      simp only [List.map_cons, List.cons_append, inRange, Bool.and_eq_true, decide_eq_true_eq,
        List.zipWith_cons_cons] at h ⊢
      refine ⟨?_, ih nc0 c0 nc is (fun b hb => ha b (by simp [hb])) hc h.2⟩
      obtain ⟨⟨h1, h2, h3, h4⟩, hh⟩ := ha a (by simp)
      simp only [Ax.Hit, Ax.ilo, Ax.ihi] at *
      omega

/-- `_get_data` when the range meets the window on every axis. -/
theorem getData_hit {cfg : Cfg} {f : Bytes} {dof : Nat} {d : Dom} {axs : List Ax}
    {nc0 c0 c1 nc : Nat} (hd : DomIs d axs nc0 c0 c1) (hcfg : CfgIs cfg axs c0 c1)
    (hax : ∀ a ∈ axs, a.OK ∧ a.Hit) (hc : c0 + nc + c1 = nc0)
    {ws : List Word} {off : Nat} (hws : Holds f dof off ws)
    (hl : ws.length = (axs.map (fun a : Ax => a.up - (a.lo - 1)) ++ [nc0]).prod)
    {count : Int} (hcount : count = ws.length) (rng : Option (List Int × List Int))
    (hrng : rng = some (axs.map (fun a => (a.lo : Int)), axs.map (fun a => (a.up : Int))) ∨
      (rng = none ∧ cfg.partialLoad = true ∧ ∀ a ∈ axs, a.lo = 1 ∧ a.up = a.n)) :
    getData cfg f dof d count rng off = .ok
      (some (partOf axs nc c0 ⟨axs.map (fun a => a.up - (a.lo - 1)) ++ [nc0], ws⟩,
        axs.map fun a => (((a.ilo - a.g0 + 1 : Nat) : Int), ((a.ihi - a.g0 : Nat) : Int))),
       off + ws.length * dof) := by
  have hnc : d.numComps = (nc : Int) := by rw [hd.nc]; omega
  cases hp : cfg.partialLoad with
  | false =>
    obtain ⟨hg, hc0, hc1⟩ := hcfg hp
    subst hc0 hc1
    have hncE : nc = nc0 := by omega
    subst hncE
    rcases hrng with rfl | ⟨rfl, h, _⟩
    swap
    · rw [hp] at h; cases h
    simp only [getData, hp, Bool.not_false, if_true, bind, Except.bind, advance, hcount]
    rw [if_neg (by have : (0 : Int) ≤ (ws.length : Int) * dof := by positivity
                   omega)]
    simp only
    rw [hws.fromfile (le_refl _), List.take_length]
    have hshape : List.zipWith (fun l u : Int => u - l + 1) (axs.map (fun a => (a.lo : Int)))
        (axs.map (fun a => (a.up : Int))) ++ [d.numComps] =
        (axs.map fun a => ((a.up - (a.lo - 1) : Nat) : Int)) ++ [(nc : Int)] := by
      rw [hnc, List.zipWith_map, List.zipWith_self]
      congr 1
      apply List.map_congr_left
      intro a ha
      obtain ⟨⟨h1, h2, h3, h4⟩, _⟩ := hax a ha
      omega
    rw [hshape, reshape_ok hl]
    simp only [pure, Except.pure]
    congr 3
    · congr 1
      · apply NArr.ext_get?
        · exact hl
        · apply NArr.ofFn_WF
          intro idx hi
          apply NArr.get?_isSome
          · exact hl
          · exact inRange_shift axs nc 0 nc idx hax (by omega) hi
        · simp only [partOf, NArr.ofFn_shape]
          congr 1
          apply List.map_congr_left
          intro a ha
          obtain ⟨⟨h1, h2, h3, h4⟩, _⟩ := hax a ha
          obtain ⟨e1, e2⟩ := hg a ha
          simp only [Ax.ilo, Ax.ihi]; omega
        · intro idx hi
          have hsh : axs.map (fun a => a.up - (a.lo - 1)) = axs.map (fun a => a.ihi - a.ilo) := by
            apply List.map_congr_left
            intro a ha
            obtain ⟨⟨h1, h2, h3, h4⟩, _⟩ := hax a ha
            obtain ⟨e1, e2⟩ := hg a ha
            simp only [Ax.ilo, Ax.ihi]; omega
          have hi' : inRange (axs.map (fun a => a.ihi - a.ilo) ++ [nc]) idx = true := by
            rw [← hsh]; exact hi
          rw [partOf, NArr.ofFn_get? (fun idx hi => NArr.get?_isSome (a := ⟨_, ws⟩) hl
            (inRange_shift axs nc 0 nc idx hax (by omega) hi)) hi']
          congr 1
          have hz : axs.map (fun a => a.ilo - (a.lo - 1)) ++ [0] =
              List.replicate (axs.length + 1) 0 := by
            rw [List.replicate_succ', ← List.map_const']
            congr 1
            apply List.map_congr_left
            intro a ha
            obtain ⟨e1, e2⟩ := hg a ha
            simp only [Ax.ilo]; omega
          rw [hz]
          have hil : idx.length = axs.length + 1 := by
            have := inRange_length hi; simpa using this
          rw [← hil]
          clear hi hi' hz hil
          induction idx with
          | nil => rfl
          | cons i is ih => simp only [List.length_cons, List.replicate_succ,
              List.zipWith_cons_cons, Nat.add_zero, ← ih]
      · rw [List.zip_map', ]
        apply List.map_congr_left
        intro a ha
        obtain ⟨⟨h1, h2, h3, h4⟩, _⟩ := hax a ha
        obtain ⟨e1, e2⟩ := hg a ha
        simp only [Ax.ilo, Ax.ihi, Prod.mk.injEq]; omega
  | true =>
    have hlo : (rng.map (·.1)).getD (d.origCells.map fun _ => 1) = axs.map fun a => (a.lo : Int) := by
      rcases hrng with rfl | ⟨rfl, _, h⟩
      · rfl
      · simp only [Option.map_none, Option.getD_none, hd.orig, List.map_map]
        apply List.map_congr_left
        intro a ha
        have := (h a ha).1
        simp [this]
    have hup : (rng.map (·.2)).getD d.origCells = axs.map fun a => (a.up : Int) := by
      rcases hrng with rfl | ⟨rfl, _, h⟩
      · rfl
      · simp only [Option.map_none, Option.getD_none, hd.orig]
        apply List.map_congr_left
        intro a ha
        rw [(h a ha).2]
    have hdims : zip4 blockDim d.origCells d.globOffs (axs.map fun a => (a.lo : Int))
        (axs.map fun a => (a.up : Int)) = axs.map fun a =>
      (((a.ilo - (a.lo - 1) : Nat) : Int), ((a.up - min (a.n - a.g1) a.up : Nat) : Int),
        ((a.up - (a.lo - 1) : Nat) : Int), (a.ihi : Int) - a.ilo) := by
      rw [hd.orig, hd.offs, zip4_map]
      exact List.map_congr_left fun a ha => blockDim_ax a (hax a ha).1
    have htgt : zip4 blockTarget d.origCells d.globOffs (axs.map fun a => (a.lo : Int))
        (axs.map fun a => (a.up : Int)) = axs.map fun a =>
      (((a.ilo - a.g0 + 1 : Nat) : Int), ((a.ihi - a.g0 : Nat) : Int)) := by
      rw [hd.orig, hd.offs, zip4_map]
      exact List.map_congr_left fun a ha => blockTarget_ax a (hax a ha).1 (hax a ha).2
    have hbd : (axs.map fun a => (((a.ilo - (a.lo - 1) : Nat) : Int),
        ((a.up - min (a.n - a.g1) a.up : Nat) : Int),
        ((a.up - (a.lo - 1) : Nat) : Int), (a.ihi : Int) - a.ilo)).map
        (fun q => (⟨q.1.toNat, q.2.1.toNat, q.2.2.1.toNat, q.2.2.2.toNat⟩ : BlockDim)) =
        axs.map Ax.dim := by
      rw [List.map_map]
      apply List.map_congr_left
      intro a ha
      have hh := (hax a ha).2
      simp only [Function.comp, Ax.dim, Ax.ihi, Int.toNat_natCast]
      congr 1
      omega
    have hnohit : (axs.map fun a => (((a.ilo - (a.lo - 1) : Nat) : Int),
        ((a.up - min (a.n - a.g1) a.up : Nat) : Int),
        ((a.up - (a.lo - 1) : Nat) : Int), (a.ihi : Int) - a.ilo)).any
        (fun q => decide (q.2.2.2 < 1)) = false := by
      rw [List.any_eq_false]
      intro q hq
      obtain ⟨a, ha, rfl⟩ := List.mem_map.1 hq
      have hh := (hax a ha).2
      simp only [Ax.Hit] at hh
      simp only [decide_eq_true_eq]
      omega
    have hdok : DimsOK (axs.map Ax.dim) := by
      intro e he
      obtain ⟨a, ha, rfl⟩ := List.mem_map.1 he
      obtain ⟨⟨h1, h2, h3, h4⟩, hh⟩ := hax a ha
      simp only [Ax.dim, Ax.ilo, Ax.ihi, Ax.Hit] at *
      omega
    have hnum : (axs.map Ax.dim).map BlockDim.num = axs.map fun a => a.up - (a.lo - 1) := by
      rw [List.map_map]; rfl
    have hcel : (axs.map Ax.dim).map BlockDim.cells = axs.map fun a => a.ihi - a.ilo := by
      rw [List.map_map]; rfl
    have hoff : (axs.map Ax.dim).map BlockDim.off0 = axs.map fun a => a.ilo - (a.lo - 1) := by
      rw [List.map_map]; rfl
    have hls : ws.length = storedSize nc0 (axs.map Ax.dim) := by
      rw [hl, storedSize, hnum]; simp
    have hblk := getBlock_ok (f := f) (dof := dof) hc (axs.map Ax.dim)
      ⟨off, 0, List.replicate (((axs.map Ax.dim).map BlockDim.cells).prod * nc)
        (List.replicate dof 0)⟩ ws hdok hws hls (by simp [readSize])
    have hsl := subFlat_length hc (axs.map Ax.dim) ws hdok hls
    have hout : (BlkSt.put ⟨off, 0, List.replicate (((axs.map Ax.dim).map BlockDim.cells).prod * nc)
        (List.replicate dof 0)⟩ (off + ws.length * dof)
        (subFlat nc c0 nc0 (axs.map Ax.dim) ws)).out = subFlat nc c0 nc0 (axs.map Ax.dim) ws := by
      simp only [BlkSt.put, List.take_zero, List.nil_append, Nat.zero_add]
      rw [List.drop_eq_nil_of_le]
      · simp
      · rw [hsl]; simp [readSize]
    have hshape : (axs.map fun a => (((a.ilo - a.g0 + 1 : Nat) : Int),
        ((a.ihi - a.g0 : Nat) : Int))).map (fun t => t.2 - t.1 + 1) ++ [d.numComps] =
        (axs.map fun a => ((a.ihi - a.ilo : Nat) : Int)) ++ [(nc : Int)] := by
      rw [hnc, List.map_map]
      congr 1
      apply List.map_congr_left
      intro a ha
      obtain ⟨⟨h1, h2, h3, h4⟩, hh⟩ := hax a ha
      simp only [Function.comp, Ax.ilo, Ax.ihi, Ax.Hit] at *
      omega
    simp only [getData, hp, Bool.not_true, Bool.false_eq_true, if_false, hlo, hup, hdims, htgt, hbd,
      hnohit]
    rw [if_neg (by rw [hnc]; omega)]
    simp only [hnc, hd.oc, hd.co, clip0, Int.toNat_natCast, bind, Except.bind]
    have hm0 : (max (c0 : Int) 0).toNat = c0 := by omega
    have hm1 : (max (c1 : Int) 0).toNat = c1 := by omega
    rw [hm0, hm1, hblk]
    rw [hnc] at hshape
    simp only [hout, hshape]
    rw [reshape_ok (by rw [hsl, readSize, hcel]; simp)]
    simp only [pure, Except.pure, BlkSt.put, partOf, NArr.ofFn]
    rw [subFlat_eq hc _ _ hdok hls, hcel, hnum, hoff]

end GkylReader
end Pgkyl
