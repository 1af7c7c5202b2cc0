import Verif.Lemmas.GkylMulti
/-! The loop over the ranges of a multi-range file. -/

namespace Pgkyl
namespace GkylReader

/-- axes of a window `(n, g0, g1)` together with a range -/
def mkAx : List (Nat × Nat × Nat) → List Nat → List Nat → List Ax
  | w :: ws, l :: ls, u :: us => ⟨w.1, l, u, w.2.1, w.2.2⟩ :: mkAx ws ls us
  | _, _, _ => []

/-- the window is non-empty on every axis -/
def WinOK (wins : List (Nat × Nat × Nat)) : Prop := ∀ w ∈ wins, w.2.1 + w.2.2 < w.1

/-- the reader's domain for a window -/
structure WinIs (d : Dom) (wins : List (Nat × Nat × Nat)) (nc0 c0 c1 : Nat) : Prop where
  nd : d.numDims = wins.length
  orig : d.origCells = wins.map fun w => (w.1 : Int)
  offs : d.globOffs = wins.map fun w => ((w.2.1 : Int), (w.2.2 : Int))
  cells : d.cells = wins.map fun w => (((w.1 - w.2.2 - w.2.1 : Nat) : Int))
  oc : d.origComps = nc0
  co : d.compOffs = ((c0 : Int), (c1 : Int))
  nc : d.numComps = ((nc0 - c0 - c1 : Nat) : Int)

theorem within_lens : ∀ {ns ls us : List Nat}, Spec.Range.within ns ls us →
    ls.length = ns.length ∧ us.length = ns.length := by
  intro ns
  induction ns with
  | nil => intro ls us h; cases ls <;> cases us <;> simp [Spec.Range.within] at *
  | cons n ns ih =>
    intro ls us h
    cases ls <;> cases us <;> simp only [Spec.Range.within] at h
    obtain ⟨_, h⟩ := h
    have := ih h
    simp [this]

theorem mkAx_facts : ∀ (wins : List (Nat × Nat × Nat)) (lo up : List Nat), WinOK wins →
    Spec.Range.within (wins.map (·.1)) lo up →
    (∀ a ∈ mkAx wins lo up, a.OK) ∧ (mkAx wins lo up).map (·.lo) = lo ∧
    (mkAx wins lo up).map (·.up) = up ∧
    (mkAx wins lo up).map (fun a => (a.n, a.g0, a.g1)) = wins := by
  intro wins
  induction wins with
  | nil => intro lo up _ h; cases lo <;> cases up <;> simp [Spec.Range.within, mkAx] at *
  | cons w ws ih =>
    intro lo up hw h
    cases lo with
    | nil => cases up <;> simp [Spec.Range.within] at h
    | cons l ls =>
      cases up with
      | nil => simp [Spec.Range.within] at h
      | cons u us =>
        simp only [Spec.Range.within, List.map_cons] at h
        obtain ⟨⟨h1, h2, h3⟩, h4⟩ := h
        obtain ⟨i1, i2, i3, i4⟩ := ih ls us (fun v hv => hw v (by simp [hv])) h4
        refine ⟨?_, ?_, ?_, ?_⟩
        · intro a ha
          simp only [mkAx, List.mem_cons] at ha
          rcases ha with rfl | ha
          · exact ⟨h1, h2, h3, hw w (by simp)⟩
          · exact i1 a ha
        · simp [mkAx, i2]
        · simp [mkAx, i3]
        · simp [mkAx, i4]

theorem map_of_wins {axs : List Ax} {wins : List (Nat × Nat × Nat)} {β : Type}
    (h : axs.map (fun a => (a.n, a.g0, a.g1)) = wins) (g : Nat × Nat × Nat → β) :
    wins.map g = axs.map fun a => g (a.n, a.g0, a.g1) := by
  rw [← h, List.map_map]; rfl

theorem WinIs.dom {d : Dom} {wins : List (Nat × Nat × Nat)} {nc0 c0 c1 : Nat} {axs : List Ax}
    (h : WinIs d wins nc0 c0 c1) (ha : axs.map (fun a => (a.n, a.g0, a.g1)) = wins) :
    DomIs d axs nc0 c0 c1 where
  nd := by rw [h.nd, ← ha]; simp
  orig := by rw [h.orig, map_of_wins ha]
  offs := by rw [h.offs, map_of_wins ha]
  cells := by rw [h.cells, map_of_wins ha]
  oc := h.oc
  co := h.co
  nc := h.nc

/-- window index to global index -/
def shift (wins : List (Nat × Nat × Nat)) (c0 : Nat) (idx : List Nat) : List Nat :=
  List.zipWith (· + ·) idx (wins.map (fun w => w.2.1) ++ [c0])

/-- data shape for a window -/
def winDims (wins : List (Nat × Nat × Nat)) (nc : Nat) : List Nat :=
  wins.map (fun w => w.1 - w.2.2 - w.2.1) ++ [nc]

theorem covers_cells : ∀ (axs : List Ax) (cell : List Nat), cell.length = axs.length →
    (List.zip (List.zipWith (· + ·) cell (axs.map (·.g0)))
      (List.zip (axs.map (·.lo)) (axs.map (·.up)))).all
      (fun p => decide (p.2.1 ≤ p.1 + 1) && decide (p.1 + 1 ≤ p.2.2)) =
    ∀ c, coversAx axs (cell ++ [c]) := by
  intro axs
  induction axs with
  | nil => intro cell h; cases cell <;> simp [coversAx] at *
  | cons a axs ih =>
    intro cell h
    cases cell with
    | nil => simp at h
    | cons i is =>
      have := ih is (by simpa using h)
      simp only [List.map_cons, List.zipWith_cons_cons, List.zip_cons_cons, List.all_cons,
        List.cons_append, coversAx, Bool.and_eq_true, eq_iff_iff] at this ⊢
      rw [this]
      simp [forall_and]

theorem coversAx_snoc (axs : List Ax) : ∀ (cell : List Nat) (c c' : Nat), cell.length = axs.length →
    coversAx axs (cell ++ [c]) = coversAx axs (cell ++ [c']) := by
  induction axs with
  | nil => intro cell c c' h; cases cell <;> simp [coversAx] at *
  | cons a axs ih =>
    intro cell c c' h
    cases cell with
    | nil => simp at h
    | cons i is => simp only [List.cons_append, coversAx]; rw [ih is c c' (by simpa using h)]

theorem srcIdx_snoc (axs : List Ax) (c0 : Nat) : ∀ (cell : List Nat) (c : Nat),
    cell.length = axs.length →
    srcIdx axs c0 (cell ++ [c]) = List.zipWith (fun i l => i + 1 - l)
      (List.zipWith (· + ·) cell (axs.map (·.g0))) (axs.map (·.lo)) ++ [c + c0] := by
  induction axs with
  | nil => intro cell c h; cases cell <;> simp [srcIdx] at *
  | cons a axs ih =>
    intro cell c h
    cases cell with
    | nil => simp at h
    | cons i is =>
      simp only [List.cons_append, srcIdx, List.map_cons, List.zipWith_cons_cons]
      rw [ih is c (by simpa using h)]

/-- Pointwise description by the specification of ranges. -/
theorem cover_spec {wins : List (Nat × Nat × Nat)} {r : Spec.Range} {axs : List Ax} {c0 : Nat}
    (hw : axs.map (fun a => (a.n, a.g0, a.g1)) = wins) (hlo : axs.map (·.lo) = r.lo)
    (hup : axs.map (·.up) = r.up) {idx : List Nat} (hl : idx.length = wins.length + 1) :
    r.covers (shift wins c0 idx).dropLast = coversAx axs idx ∧
    r.value (shift wins c0 idx) = r.data.get? (srcIdx axs c0 idx) := by
  have hlen : axs.length = wins.length := by rw [← hw]; simp
  have hne : idx ≠ [] := by intro h; simp [h] at hl
  obtain ⟨cell, c, rfl⟩ : ∃ cell c, idx = cell ++ [c] :=
    ⟨idx.dropLast, idx.getLast hne, (List.dropLast_append_getLast hne).symm⟩
  have hcl : cell.length = axs.length := by simp at hl; omega
  have hg : wins.map (fun w => w.2.1) = axs.map (·.g0) := map_of_wins hw _
  have hsh : shift wins c0 (cell ++ [c]) =
      List.zipWith (· + ·) cell (axs.map (·.g0)) ++ [c + c0] := by
    rw [shift, hg, List.zipWith_append (by simpa using hcl)]; rfl
  rw [hsh]
  constructor
  · simp only [Spec.Range.covers, List.dropLast_concat, ← hlo, ← hup]
    have h1 := covers_cells axs cell hcl
    rw [Bool.eq_iff_iff, h1]
    exact ⟨fun h => h c, fun h c' => by rw [coversAx_snoc axs cell c' c hcl]; exact h⟩
  · simp only [Spec.Range.value, List.dropLast_concat, ← hlo]
    rw [srcIdx_snoc axs c0 cell c hcl]
    simp

/-- One iteration of the loop over ranges: it stores the part of the range inside the window. -/
theorem t3Step_ok {cfg : Cfg} {f rest : Bytes} {x : Spec.Field} {w : Nat} (hx : x.OK w)
    {d : Dom} {wins : List (Nat × Nat × Nat)} {c0 c1 nc : Nat}
    (hcells : wins.map (·.1) = x.cells) (hwin : WinOK wins)
    (hd : WinIs d wins x.comps c0 c1)
    (hcfg : cfg.partialLoad = false → (∀ v ∈ wins, v.2.1 = 0 ∧ v.2.2 = 0) ∧ c0 = 0 ∧ c1 = 0)
    (hc : c0 + nc + c1 = x.comps) (hnc : 0 < nc)
    {r : Spec.Range} (hr : r.OK x) {data : NArr Word} {off : Nat}
    (hf : f.drop off = r.bytes ++ rest) (hdw : data.WF) (hds : data.shape = winDims wins nc) :
    ∃ data' off', t3Step cfg f (Spec.realSize x.realType) d (data, off) = .ok (data', off') ∧
      f.drop off' = rest ∧ data'.WF ∧ data'.shape = winDims wins nc ∧
      ∀ idx, inRange (winDims wins nc) idx = true → data'.get? idx =
        if r.covers (shift wins c0 idx).dropLast then r.value (shift wins c0 idx)
        else data.get? idx := by
  have hin := hr.inside
  rw [← hcells] at hin
  obtain ⟨haok, hlo, hup, hw⟩ := mkAx_facts wins r.lo r.up hwin hin
  generalize haxs : mkAx wins r.lo r.up = axs at *
  have hdom := hd.dom hw
  have hlenN : wins.length = x.cells.length := by rw [← hcells]; simp
  obtain ⟨hl1, hl2⟩ := within_lens hr.inside
  have hf0 : f.drop off = r.lo.flatMap Spec.u64 ++ (r.up.flatMap Spec.u64 ++
      (Spec.u64 r.extents.prod ++ (r.data.data.flatten ++ rest))) := by
    rw [hf]; simp [Spec.Range.bytes]
  have hdN : d.numDims = x.cells.length := by rw [hd.nd, hlenN]
  have hloFit : ∀ n ∈ r.lo, n < 2 ^ 63 := by
    intro n hn
    rw [← hlo] at hn
    obtain ⟨a, ha, rfl⟩ := List.mem_map.1 hn
    have h1 := haok a ha
    have h2 : a.n ∈ x.cells := by
      rw [← hcells, map_of_wins hw]; exact List.mem_map.2 ⟨a, ha, rfl⟩
    have := hx.cellsFit _ h2
    obtain ⟨_, _, _, _⟩ := h1; omega
  have hupFit : ∀ n ∈ r.up, n < 2 ^ 63 := by
    intro n hn
    rw [← hup] at hn
    obtain ⟨a, ha, rfl⟩ := List.mem_map.1 hn
    have h1 := haok a ha
    have h2 : a.n ∈ x.cells := by
      rw [← hcells, map_of_wins hw]; exact List.mem_map.2 ⟨a, ha, rfl⟩
    have := hx.cellsFit _ h2
    obtain ⟨_, _, _, _⟩ := h1; omega
  have hext : r.extents = axs.map fun a => a.up - (a.lo - 1) := by
    rw [Spec.Range.extents, ← hlo, ← hup, List.zipWith_map, List.zipWith_self]
    apply List.map_congr_left
    intro a ha
    obtain ⟨_, _, _, _⟩ := haok a ha
    omega
  have hextFit : r.extents.prod < 2 ^ 63 := by
    refine Nat.lt_of_le_of_lt ?_ hx.size
    rw [hext, ← hcells, map_of_wins hw]
    clear hf hf0 haxs hlo hup hw hdom hext
    induction axs with
    | nil => simp
    | cons a axs ih =>
      simp only [List.map_cons, List.prod_cons]
      apply Nat.mul_le_mul
      · obtain ⟨_, _, _, _⟩ := haok a (by simp); omega
      · exact ih (fun b hb => haok b (by simp [hb]))
  have r1 := readIs_u64 hf0 hl1 hloFit
  have hf1 := drop_add hf0 (flatMap_u64_length _)
  have r2 := readIs_u64 hf1 hl2 hupFit
  have hf2 := drop_add hf1 (flatMap_u64_length _)
  have r3 := readI_u64 hf2 hextFit
  have hf3 := drop_add hf2 (u64_length _)
  rw [hl1] at hf1 r2 hf2 r3 hf3
  rw [hl2] at hf2 r3 hf3
  have hws : Holds f (Spec.realSize x.realType) (off + x.cells.length * 8 + x.cells.length * 8 + 8)
      r.data.data := ⟨⟨rest, hf3⟩, hr.data.2⟩
  have hdl : r.data.data.length = (axs.map (fun a : Ax => a.up - (a.lo - 1)) ++ [x.comps]).prod := by
    have := hr.data.1
    rw [NArr.WF, hr.shape, hext] at this
    exact this
  have hB : r.data = ⟨axs.map (fun a => a.up - (a.lo - 1)) ++ [x.comps], r.data.data⟩ := by
    have h1 := hr.shape
    rw [hext] at h1
    cases hrd : r.data
    rw [hrd] at h1
    simp only at h1
    rw [h1]
  have hlo' : r.lo.map (fun (n : Nat) => (n : Int)) = axs.map fun a => (a.lo : Int) := by
    rw [← hlo, List.map_map]; rfl
  have hup' : r.up.map (fun (n : Nat) => (n : Int)) = axs.map fun a => (a.up : Int) := by
    rw [← hup, List.map_map]; rfl
  have hcount : (r.extents.prod : Int) * d.origComps = r.data.data.length := by
    rw [hd.oc, hdl, hext]; simp
  have hend : f.drop (off + x.cells.length * 8 + x.cells.length * 8 + 8 +
      r.data.data.length * Spec.realSize x.realType) = rest :=
    drop_add hf3 (flatten_length hr.data.2)
  have hwd : winDims wins nc = winShape axs nc := by
    rw [winDims, winShape, map_of_wins hw]
  have hpart : cfg.partialLoad = false → ∀ a ∈ axs, a.g0 = 0 ∧ a.g1 = 0 := by
    intro hp a ha
    apply (hcfg hp).1 (a.n, a.g0, a.g1)
    rw [← hw]; exact List.mem_map.2 ⟨a, ha, rfl⟩
  simp only [t3Step, hdN, r1, r2, r3, bind, Except.bind, hlo', hup']
  by_cases hhit : ∀ a ∈ axs, a.Hit
  · have hax : ∀ a ∈ axs, a.OK ∧ a.Hit := fun a ha => ⟨haok a ha, hhit a ha⟩
    rw [getData_hit hdom (fun hp => ⟨hpart hp, (hcfg hp).2⟩) hax hc hws hdl hcount _ (Or.inl rfl)]
    simp only
    have hb0 : (partOf axs nc c0 ⟨axs.map (fun a => a.up - (a.lo - 1)) ++ [x.comps],
        r.data.data⟩).shape.head? ≠ some 0 := by
      simp only [partOf, NArr.ofFn_shape]
      cases axs with
      | nil => simp; omega
      | cons a axs =>
        have := hhit a (by simp)
        simp only [Ax.Hit] at this
        simp; omega
    rw [if_neg hb0]
    obtain ⟨data', e1, e2, e3, e4⟩ := assignBlock_ok (B := r.data) (data := data) (nc := nc) (c0 := c0)
      (nc0 := x.comps)
      hr.data.1 (by rw [hr.shape, hext]) hax (by omega) hdw (by rw [hds, hwd])
    rw [← hB, e1]
    refine ⟨data', _, rfl, hend, e2, by rw [e3, hds], ?_⟩
    intro idx hi
    rw [e4 idx (by rw [hds]; exact hi)]
    have hil : idx.length = wins.length + 1 := by
      have := inRange_length hi; simpa [winDims] using this
    obtain ⟨s1, s2⟩ := cover_spec (c0 := c0) hw hlo hup hil
    rw [s1, s2]
  · have hp : cfg.partialLoad = true := by
      cases hp : cfg.partialLoad with
      | true => rfl
      | false =>
        exfalso
        apply hhit
        intro a ha
        obtain ⟨h1, h2⟩ := hpart hp a ha
        obtain ⟨h3, h4, h5, h6⟩ := haok a ha
        simp only [Ax.Hit, Ax.ilo, Ax.ihi]; omega
    rw [getData_miss hdom hp haok hhit hcount]
    refine ⟨data, _, rfl, hend, hdw, hds, ?_⟩
    intro idx hi
    have hil : idx.length = wins.length + 1 := by
      have := inRange_length hi; simpa [winDims] using this
    obtain ⟨s1, s2⟩ := cover_spec (r := r) (c0 := c0) hw hlo hup hil
    rw [s1, if_neg]
    rw [hwd] at hi
    clear hf hf0 haxs hlo hup hw hdom hext s1 s2 hil hds hwd hdl hB hlo' hup'
    intro hcv
    apply hhit
    clear hhit hpart
    induction axs generalizing idx with
    | nil => simp
    | cons a axs ih =>
      cases idx with
      | nil => simp [winShape, inRange] at hi
      | cons i is =>
        simp only [winShape, List.map_cons, List.cons_append, inRange, Bool.and_eq_true,
          decide_eq_true_eq, coversAx] at hi hcv
        intro b hb
        rcases List.mem_cons.1 hb with rfl | hb
        · obtain ⟨h3, h4, h5, h6⟩ := haok b (by simp)
          simp only [Ax.Hit, Ax.ilo, Ax.ihi]; omega
        · exact ih (fun b hb => haok b (by simp [hb])) is hi.2 hcv.2 b hb

/-- What a list of ranges leaves at a global index, starting from `base`. -/
def overlay (rs : List Spec.Range) (base : Option Word) (idx : List Nat) : Option Word :=
  match rs.reverse.find? fun r => r.covers idx.dropLast with
  | some r => r.value idx
  | none => base

theorem overlay_cons (r : Spec.Range) (rs : List Spec.Range) (base : Option Word) (idx : List Nat) :
    overlay (r :: rs) base idx =
      overlay rs (if r.covers idx.dropLast then r.value idx else base) idx := by
  simp only [overlay, List.reverse_cons, List.find?_append]
  cases rs.reverse.find? fun r => r.covers idx.dropLast with
  | some q => simp
  | none =>
    by_cases h : r.covers idx.dropLast = true
    · simp [h]
    · simp [h]

theorem t3Loop_ok {cfg : Cfg} {f : Bytes} {x : Spec.Field} {w : Nat} (hx : x.OK w)
    {d : Dom} {wins : List (Nat × Nat × Nat)} {c0 c1 nc : Nat}
    (hcells : wins.map (·.1) = x.cells) (hwin : WinOK wins)
    (hd : WinIs d wins x.comps c0 c1)
    (hcfg : cfg.partialLoad = false → (∀ v ∈ wins, v.2.1 = 0 ∧ v.2.2 = 0) ∧ c0 = 0 ∧ c1 = 0)
    (hc : c0 + nc + c1 = x.comps) (hnc : 0 < nc) :
    ∀ (rs : List Spec.Range), (∀ r ∈ rs, r.OK x) → ∀ (rest : Bytes) (data : NArr Word) (off : Nat),
      f.drop off = rs.flatMap Spec.Range.bytes ++ rest → data.WF → data.shape = winDims wins nc →
      ∃ data' off', iterM rs.length (t3Step cfg f (Spec.realSize x.realType) d) (data, off) =
          .ok (data', off') ∧ data'.WF ∧ data'.shape = winDims wins nc ∧
        ∀ idx, inRange (winDims wins nc) idx = true → data'.get? idx =
          overlay rs (data.get? idx) (shift wins c0 idx) := by
  intro rs
  induction rs with
  | nil =>
    intro _ rest data off hf hdw hds
    exact ⟨data, off, rfl, hdw, hds, fun idx _ => by simp [overlay]⟩
  | cons r rs ih =>
    intro hrs rest data off hf hdw hds
    have hf' : f.drop off = r.bytes ++ (rs.flatMap Spec.Range.bytes ++ rest) := by
      rw [hf]; simp
    obtain ⟨d1, o1, e1, e2, e3, e4, e5⟩ := t3Step_ok hx hcells hwin hd hcfg hc hnc
      (hrs r (by simp)) hf' hdw hds
    obtain ⟨d2, o2, g1, g2, g3, g4⟩ := ih (fun q hq => hrs q (by simp [hq])) rest d1 o1 e2 e3 e4
    refine ⟨d2, o2, ?_, g2, g3, ?_⟩
    · simp only [List.length_cons, iterM, bind, Except.bind, e1, g1]
    · intro idx hi
      rw [g4 idx hi, e5 idx hi, overlay_cons]

theorem zeros_get? (sh : List Nat) (z : Word) {idx : List Nat} (h : inRange sh idx = true) :
    (⟨sh, List.replicate sh.prod z⟩ : NArr Word).get? idx = some z := by
  simp only [NArr.get?, h, if_true]
  rw [List.getElem?_replicate, if_pos (ravel_lt h)]

/-- Reading all ranges. -/
theorem readT3_ok {V : Type} {cfg : Cfg} {f : Bytes} {x : Spec.Field} {w : Nat} (hx : x.OK w)
    {d : Dom} {wins : List (Nat × Nat × Nat)} {c0 c1 nc : Nat}
    (hcells : wins.map (·.1) = x.cells) (hwin : WinOK wins)
    (hd : WinIs d wins x.comps c0 c1)
    (hcfg : cfg.partialLoad = false → (∀ v ∈ wins, v.2.1 = 0 ∧ v.2.2 = 0) ∧ c0 = 0 ∧ c1 = 0)
    (hc : c0 + nc + c1 = x.comps) (hnc : 0 < nc)
    {rs : List Spec.Range} (hrs : ∀ r ∈ rs, r.OK x) (hn : rs.length < 2 ^ 63) {st : St V}
    (hdof : st.dof = Spec.realSize x.realType)
    (hf : f.drop st.offset = Spec.u64 rs.length ++ rs.flatMap Spec.Range.bytes) :
    ∃ data, readT3 cfg f st d = .ok data ∧ data.WF ∧ data.shape = winDims wins nc ∧
      ∀ idx, inRange (winDims wins nc) idx = true →
        data.get? idx = Spec.assembled x rs (shift wins c0 idx) := by
  have r1 := readI_u64 hf hn
  have hf1 : f.drop (st.offset + 8) = rs.flatMap Spec.Range.bytes ++ [] := by
    rw [List.append_nil]; exact drop_add hf (u64_length _)
  have hncd : d.numComps = (nc : Int) := by rw [hd.nc]; omega
  have hshape : d.cells ++ [d.numComps] = (winDims wins nc).map fun (n : Nat) => (n : Int) := by
    rw [hd.cells, hncd, winDims]; simp [Function.comp_def]
  have hneg : ((winDims wins nc).map fun (n : Nat) => (n : Int)).any (· < 0) = false := by simp
  have hnat : ((winDims wins nc).map fun (n : Nat) => (n : Int)).map Int.toNat = winDims wins nc := by
    rw [List.map_map]; simp [Function.comp_def]
  obtain ⟨data, off, e1, e2, e3, e4⟩ := t3Loop_ok (f := f) hx hcells hwin hd hcfg hc hnc rs hrs []
    ⟨winDims wins nc, List.replicate (winDims wins nc).prod
      (List.replicate (Spec.realSize x.realType) 0)⟩ (st.offset + 8) hf1 (by simp [NArr.WF]) rfl
  refine ⟨data, ?_, e2, e3, ?_⟩
  · simp only [readT3, r1, bind, Except.bind, hshape, hneg, hnat, hdof]
    simp only [Bool.false_eq_true, if_false, Int.toNat_natCast, e1, pure, Except.pure]
  · intro idx hi
    rw [e4 idx hi, zeros_get? _ _ hi]
    rfl

end GkylReader
end Pgkyl
