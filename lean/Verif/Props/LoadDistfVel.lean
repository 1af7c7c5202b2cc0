import Verif.Lemmas.GkDistfVel
import Verif.Props.LoadDistf
/-!
# C112: the distribution function of gyrokinetic data on mapped velocity grids

`load_gk_distf` with `use_c2p_vel` and the command `gk_distf --c2p_vel`.
-/

namespace Pgkyl
namespace Gk
open Spec Dg Cmd Space

section
variable {F : Type} [_root_.Field F] [CharZero F] [Min F] [Max F]

/-- The files of the frame: the given ones, or those the simulation writes.  The data are loaded with the mapping file. -/
def VelFiles (a : DistfArgs) (load : Str → Option Str → Except Err (GData F)) (jf jv ji : GData F) : Prop :=
  load (a.jfFile.getD (simFile a.name a.block
    (a.species ++ "_".toList ++ (if a.suffix = [] then [] else a.suffix ++ "_".toList) ++ pyStr a.frame ++ ".gkyl".toList)))
      (some (a.velFile.getD (simFile a.name a.block (a.species ++ "_mapc2p_vel.gkyl".toList)))) = .ok jf ∧
  load (a.jacobvelFile.getD (simFile a.name a.block (a.species ++ "_jacobvel.gkyl".toList))) none = .ok jv ∧
  load (a.jacobtotFile.getD (simFile a.name a.block "jacobtot_inv.gkyl".toList)) none = .ok ji

omit [_root_.Field F] [CharZero F] [Min F] [Max F] in
theorem velFiles_eq {a : DistfArgs} {load : Str → Option Str → Except Err (GData F)} {jf jv ji : GData F}
    (h : VelFiles a load jf jv ji) :
    load a.jf (some a.vel) = .ok jf ∧ load a.jacobvel none = .ok jv ∧ load a.jacobtot none = .ok ji := by
  obtain ⟨h1, h2, h3⟩ := h
  simp only [← prefix_eq] at h1 h2 h3
  refine ⟨?_, ?_, ?_⟩
  · rw [← h1, DistfArgs.jf, DistfArgs.vel]
    congr 2
    · simp [frameInfix]
    · simp
  · rw [← h2, DistfArgs.jacobvel]; simp
  · rw [← h3, DistfArgs.jacobtot]; simp

omit [CharZero F] [Min F] [Max F] in
theorem velMesh_data {c : DistfCase F} {m : VelMapping F} {g : List (NArr F)} (h : c.VelMesh m g) (hC : configDims c.jf.cells.length ≤ c.jf.axes.length)
    (hl : c.jf.axes.length = c.jf.cells.length) : ∀ x ∈ g, x.data ≠ [] := by
  obtain ⟨h1, h2, h3⟩ := h
  intro x hx h0
  obtain ⟨d, hd⟩ := List.getElem?_of_mem hx
  have hdl := (List.getElem?_eq_some_iff.1 hd).1
  by_cases hdc : d < configDims c.jf.cells.length
  · have hf : d < c.jf.fine.length := by
      rw [DgCase.fine, refineAll_length (by rw [perCell_length, hl])]; omega
    obtain ⟨y, hy, hya⟩ := h2 d hdc _ (List.getElem?_eq_getElem hf)
    rw [hd] at hy
    cases hy
    have := hya.2
    rw [h0] at this
    have := congrArg List.length this
    simp at this
  · have e : configDims c.jf.cells.length + (d - configDims c.jf.cells.length) = d := by omega
    have hp : d < (perCell "gkhybrid" c.jf.cells.length c.jf.points).length := by rw [perCell_length]; omega
    obtain ⟨y, hy, -, hyi⟩ := h3 (d - configDims c.jf.cells.length) (c.jf.cells[d]'(by omega)) ((perCell "gkhybrid" c.jf.cells.length c.jf.points)[d])
      (by rw [e]; exact List.getElem?_eq_getElem _) (by rw [e]; exact List.getElem?_eq_getElem _)
    rw [e, hd] at hy
    cases hy
    obtain ⟨cell, -, -, -, hg⟩ := hyi 0 (by omega)
    simp [NArr.get?, h0] at hg

theorem loadVel_eq {a : DistfArgs} {load : Str → Option Str → Except Err (GData F)} {jf jv ji : GData F}
    (hf : VelFiles a load jf jv ji) (hv : a.useC2pVel = true) {c : DistfCase F} {m : VelMapping F} (h : c.StoredVel m a.interp jf jv ji) :
    ∃ g r, c.VelMesh m g ∧ c.fineCells.length = g.length ∧ (∀ x ∈ g, x.data ≠ []) ∧ configDims c.jf.cells.length ≤ g.length ∧
      IsField r c.fineCells 1 (fun i _ => c.f i) ∧
      loadDistf load a = (distfGrid load a g).bind fun p => (GData.new a.tag [] (setGridType jf.ctx p.2)).push p.1 r := by
  obtain ⟨f1, f2, f3⟩ := velFiles_eq hf
  obtain ⟨fj, g, v, g', w, r, e1, e2, e3, e4, hg, hr⟩ := distf_vel h
  have hal : c.jf.axes.length = c.jf.cells.length := by rw [← h.cells_eq, List.length_map]
  have hC : configDims c.jf.cells.length ≤ c.jf.axes.length := by
    have := congrArg List.length h.sameMesh
    rw [fine_cells h.config.1, List.length_take, h.dims] at this
    omega
  refine ⟨g, r, hg, ?_, velMesh_data hg hC hal, by rw [hg.1]; omega, hr, ?_⟩
  · rw [hg.1, DistfCase.fineCells, List.length_zipWith, perCell_length, Nat.min_self]
  · simp only [loadDistf, hv, if_true, f1, f2, f3, e1, e2, e3, e4, bind, Except.bind]

/-- **C112, mapped velocities.**  With `use_c2p_vel` the data are loaded with the mapping file of the species.  The values are those of
`C112_distribution`; the axes of configuration space are the refined ones, and those of velocity space list, for the
nodes of the refined cells, the velocities that the mapping has there. -/
theorem C112_velocity {a : DistfArgs} {load : Str → Option Str → Except Err (GData F)} {jf jv ji : GData F}
    (hf : VelFiles a load jf jv ji) (hv : a.useC2pVel = true) (hn : a.useMc2nu = false) (hp : a.useMapc2p = false)
    {c : DistfCase F} {m : VelMapping F} (h : c.StoredVel m a.interp jf jv ji) :
    ∃ g r, loadDistf load a = .ok r ∧ r.tag = a.tag ∧ r.status = true ∧ r.ctx.other = jf.ctx.other ∧ c.VelMesh m g ∧
      HoldsField r g c.fineCells 1 fun i _ => c.f i := by
  obtain ⟨g, v, hg, hl, hne, -, hr, e⟩ := loadVel_eq hf hv h
  obtain ⟨r, e2, hh⟩ := push_field hl.le hne hr (GData.new a.tag [] jf.ctx)
  obtain ⟨t1, t2, t3, -, -⟩ := push_tag e2
  refine ⟨g, r, ?_, t1, t2, t3, hg, hh⟩
  rw [e]
  simp only [distfGrid, hn, hp, Bool.false_eq_true, if_false, pure, Except.pure, Except.bind]
  exact e2

/-- **C112, mapped velocities and positions.**  With a mapping of configuration space as well, its axes get nodes for the mapped
positions as in `C112_mapped`; the entry for the type of the grid names both. -/
theorem C112_velocity_mapped {a : DistfArgs} {load : Str → Option Str → Except Err (GData F)} {jf jv ji dm : GData F}
    (hf : VelFiles a load jf jv ji) (hv : a.useC2pVel = true) (hp : a.useMc2nu = true ∨ a.useMapc2p = true)
    {c : DistfCase F} {m : VelMapping F} (h : c.StoredVel m a.interp jf jv ji) (hm : load (mapFile a) none = .ok dm) {x : DgCase F}
    (hfit : x.Fits (some 1) (some "ms") a.interp dm) (hcells : x.cells = c.ji.cells) (hfields : x.cells.length * x.fns.length ≤ x.m)
    (hpos : ∀ n ∈ x.cells, 1 ≤ n) :
    ∃ g g' r, loadDistf load a = .ok r ∧ r.tag = a.tag ∧ r.status = true ∧ c.VelMesh m g ∧ IsMapped x g g' ∧
      HoldsField r g' c.fineCells 1 (fun i _ => c.f i) ∧
      Dict.get? r.ctx.other "grid_type" = some (if a.useMc2nu then "c2p_vel + mc2nu" else "c2p_vel + mapc2p") ∧
      ∀ k, k ≠ "grid_type" → Dict.get? r.ctx.other k = Dict.get? jf.ctx.other k := by
  obtain ⟨g, v, hg, hl, hgne, hC, hr, e⟩ := loadVel_eq hf hv h
  have hmf : mapFile a = if a.useMc2nu then a.mc2nu else a.mapc2p := by
    simp only [mapFile, DistfArgs.mc2nu, DistfArgs.mapc2p, ← prefix_eq]
    rfl
  have hcl : x.cells.length ≤ g.length := by rw [hcells, h.dims]; exact hC
  rw [hmf] at hm
  obtain ⟨g', e1, hmap⟩ := applyMap_ok hm hfit hfields hpos hcl
  have hne : ∀ y ∈ g', y.data ≠ [] := by
    intro y hy
    obtain ⟨d, hd⟩ := List.getElem?_of_mem hy
    by_cases hdc : d < x.cells.length
    · obtain ⟨nodes, hx', hnodes⟩ := hmap.2.2 d _ (List.getElem?_eq_getElem hdc)
      rw [hd] at hx'
      cases hx'
      have := hnodes.count
      intro h0
      have : nodes.length = 0 := by
        have : (NArr.ofList nodes).data = nodes := rfl
        rw [← this, h0]; rfl
      omega
    · rw [hmap.2.1 d (by omega)] at hd
      exact hgne y (List.mem_of_getElem? hd)
  obtain ⟨r, e2, hh⟩ := push_field (by rw [hmap.1, hl]) hne hr
    (GData.new a.tag [] (setGridType jf.ctx (some (if a.useMc2nu then "c2p_vel + mc2nu" else "c2p_vel + mapc2p"))))
  obtain ⟨t1, t2, t3, -, -⟩ := push_tag e2
  refine ⟨g, g', r, ?_, t1, t2, hg, hmap, hh, ?_, ?_⟩
  · rw [e]
    cases hu : a.useMc2nu with
    | true =>
      rw [hu] at e1 e2
      simp only [if_true] at e1 e2
      simp only [distfGrid, hu, hv, if_true, e1, bind, Except.bind, pure, Except.pure]
      exact e2
    | false =>
      have hp' : a.useMapc2p = true := by simpa [hu] using hp
      rw [hu] at e1 e2
      simp only [Bool.false_eq_true, if_false] at e1 e2
      simp only [distfGrid, hu, hp', hv, if_true, e1, Bool.false_eq_true, if_false, bind, Except.bind, pure, Except.pure]
      exact e2
  · rw [t3]
    exact Dict.get?_set_self _ _ _
  · intro k hk
    rw [t3]
    exact Dict.get?_set_ne _ _ hk

/-! ### The command -/

/-- The velocity mapping that the option `--c2p_vel` names; an empty text means the file that the simulation writes. -/
def velOption (vel : Str) : Option Str := if vel = [] then none else some vel

omit [_root_.Field F] [CharZero F] [Min F] [Max F] in
theorem at_vel (a : DistfArgs) (vel : Str) (mc2nu mapc2p : Option Str) (f : Int) :
    (a.at (some vel) mc2nu mapc2p f).useC2pVel = true ∧ (a.at (some vel) mc2nu mapc2p f).velFile = velOption vel := by
  cases vel <;> exact ⟨rfl, rfl⟩

omit [_root_.Field F] [CharZero F] [Min F] [Max F] in
theorem mappingFile_vel {a : DistfArgs} {mc2nu mapc2p : Option Str} {file : Str} (h : mappingFile a mc2nu mapc2p = some file) (vel : Str) (f : Int) :
    mapFile (a.at (some vel) mc2nu mapc2p f) = file ∧ (a.at (some vel) mc2nu mapc2p f).useMc2nu = mc2nu.isSome ∧
      ((a.at (some vel) mc2nu mapc2p f).useMc2nu = true ∨ (a.at (some vel) mc2nu mapc2p f).useMapc2p = true) := by
  rcases mc2nu with _ | (_ | ⟨c, cs⟩) <;> rcases mapc2p with _ | (_ | ⟨d, ds⟩) <;>
    simp_all [mappingFile, mapFile, DistfArgs.at, optionalFile]

/-- **C112, mapped velocities:** `gk_distf --c2p_vel`, with or without the name of a file, adds the datasets of
`C112_velocity`, one per frame, in the order of the frames, listed under the tag; nothing else is added or taken away.  For
one frame nothing else changes; for several only labels do.

Full statement: for several frames the labels tell them apart.  That is false, see `C112_labels_fails`. -/
theorem C112_command_velocity_partial {s : Space F} (hs : Reachable s) {text : Str} {fs : List Int} (ht : FrameText text fs) (a : DistfArgs)
    (load : Str → Option Str → Except Err (GData F)) (glob : Str → List Str) (vel : Str) (J : Int → GData F) {jv ji : GData F}
    (C : Int → DistfCase F) (m : VelMapping F)
    (hf : ∀ f ∈ fs, VelFiles { a with frame := f, velFile := velOption vel } load (J f) jv ji ∧ (C f).StoredVel m a.interp (J f) jv ji) :
    ∃ (s' : Space F) (rs : List (GData F)), gkDistf load glob text a (some vel) none none s = .ok s' ∧
      List.Forall₂ (fun f r => r.tag = a.tag ∧ r.status = true ∧ r.ctx.other = (J f).ctx.other ∧
        ∃ g, (C f).VelMesh m g ∧ HoldsField r g (C f).fineCells 1 fun i _ => (C f).f i) fs rs ∧
      (∀ t, s'.lookup t = if t = a.tag then some ((s.lookup t).getD [] ++ List.range' s.heap.length fs.length) else s.lookup t) ∧
      (fs.length = 1 → s'.heap = s.heap ++ rs) ∧
      ∀ j : Nat, ∃ l : Str, s'.heap[j]? = ((s.heap ++ rs)[j]?).map fun d : GData F => { d with label := l } := by
  refine command_store hs ht a load glob (some vel) none none fun f hff => ?_
  obtain ⟨k1, k2⟩ := hf f hff
  obtain ⟨a1, a2⟩ := at_vel a vel none none f
  obtain ⟨g, r, e1, e2, e3, e4, e5, e6⟩ := C112_velocity (a := a.at (some vel) none none f) (jf := J f) (jv := jv) (ji := ji)
    (by unfold VelFiles; rw [a2]; exact k1) a1 rfl rfl k2
  exact ⟨r, e1, e2, e3, e4, g, e5, e6⟩

/-- **C112, mapped velocities and positions:** the same with `--mc2nu` or `--mapc2p`.  (Labels as above.) -/
theorem C112_command_velocity_mapped_partial {s : Space F} (hs : Reachable s) {text : Str} {fs : List Int} (ht : FrameText text fs)
    (a : DistfArgs) (load : Str → Option Str → Except Err (GData F)) (glob : Str → List Str) (vel : Str) (J : Int → GData F)
    {jv ji dm : GData F} (C : Int → DistfCase F) (m : VelMapping F)
    (hf : ∀ f ∈ fs, VelFiles { a with frame := f, velFile := velOption vel } load (J f) jv ji ∧ (C f).StoredVel m a.interp (J f) jv ji)
    {mc2nu mapc2p : Option Str} {file : Str} (hfile : mappingFile a mc2nu mapc2p = some file) (hm : load file none = .ok dm)
    {x : DgCase F} (hfit : x.Fits (some 1) (some "ms") a.interp dm) (hcells : ∀ f ∈ fs, x.cells = (C f).ji.cells)
    (hfields : x.cells.length * x.fns.length ≤ x.m) (hpos : ∀ n ∈ x.cells, 1 ≤ n) :
    ∃ (s' : Space F) (rs : List (GData F)), gkDistf load glob text a (some vel) mc2nu mapc2p s = .ok s' ∧
      List.Forall₂ (fun f r => r.tag = a.tag ∧ r.status = true ∧
        (∃ g g', (C f).VelMesh m g ∧ IsMapped x g g' ∧ HoldsField r g' (C f).fineCells 1 fun i _ => (C f).f i) ∧
        Dict.get? r.ctx.other "grid_type" = some (if mc2nu.isSome then "c2p_vel + mc2nu" else "c2p_vel + mapc2p") ∧
        ∀ k, k ≠ "grid_type" → Dict.get? r.ctx.other k = Dict.get? (J f).ctx.other k) fs rs ∧
      (∀ t, s'.lookup t = if t = a.tag then some ((s.lookup t).getD [] ++ List.range' s.heap.length fs.length) else s.lookup t) ∧
      (fs.length = 1 → s'.heap = s.heap ++ rs) ∧
      ∀ j : Nat, ∃ l : Str, s'.heap[j]? = ((s.heap ++ rs)[j]?).map fun d : GData F => { d with label := l } := by
  refine command_store hs ht a load glob (some vel) mc2nu mapc2p fun f hff => ?_
  obtain ⟨k1, k2⟩ := hf f hff
  obtain ⟨a1, a2⟩ := at_vel a vel mc2nu mapc2p f
  obtain ⟨m1, m2, m3⟩ := mappingFile_vel hfile vel f
  rw [← m1] at hm
  obtain ⟨g, g', r, e1, e2, e3, e4, e5, e6, e7, e8⟩ :=
    C112_velocity_mapped (a := a.at (some vel) mc2nu mapc2p f) (jf := J f) (jv := jv) (ji := ji)
      (by unfold VelFiles; rw [a2]; exact k1) a1 m3 k2 hm hfit (hcells f hff) hfields hpos
  rw [m2] at e7
  exact ⟨r, e1, e2, e3, ⟨g, g', e4, e5, e6⟩, e7, e8⟩

end

namespace DistfEx
open DgEx (src src_onMesh axes axes_dx coef arr arr_isField)

section
variable {F : Type} [_root_.Field F]

/-- A mapping of the velocity direction with two coefficients per cell. -/
def velMap : VelMapping F := ⟨lin, fun _ c k => coef [c] k⟩

/-- The data as loaded with the mapping. -/
def velData : GData F :=
  { grid := some [NArr.ofList ((List.range 3).map (⟨0, 1, 2⟩ : Axis F).node), arr [3] 2 fun i k => coef [i.headD 0] k]
    values := some (src axes 6 coef).values
    ctx := { cells := some [2, 3], numComps := some 6, other := [("num_vdim", "1"), ("num_cdim", "1"), ("grid_type", "c2p_vel"), ("time", "3")] } }

/-- The files. -/
def loadVel (name : Str) (vel : Option Str) : Except Err (GData F) :=
  if name = "sim-ion_7.gkyl".toList ∧ vel = some "sim-ion_mapc2p_vel.gkyl".toList then .ok velData
  else load name vel

theorem velFiles : VelFiles (args 7) (loadVel (F := F)) velData (data axes 1 fun c _ => coef c 0) (data [⟨0, 1, 2⟩] 2 coef) := by
  refine ⟨?_, ?_, ?_⟩
  · exact if_pos (by decide)
  · exact (if_neg (by decide)).trans ((if_neg (by decide)).trans (if_pos (by decide)))
  · exact (if_neg (by decide)).trans ((if_neg (by decide)).trans ((if_neg (by decide)).trans (if_pos (by decide))))

variable [CharZero F]

theorem storedVel : (case (F := F)).StoredVel velMap none velData (data axes 1 fun c _ => coef c 0) (data [⟨0, 1, 2⟩] 2 coef) := by
  have ho := src_onMesh (F := F) (axes := axes) axes_dx (by simp [axes]) 6 coef
  have h := stored (F := F)
  refine ⟨⟨_, ⟨rfl, by simp [case], ?_, _, rfl, ho.values⟩, rfl, ?_, ?_⟩, ?_, ?_, ?_, ⟨1, le_rfl, by decide, lin_ok.2, lin_ok.1⟩, rfl, axes_dx,
    by simp [case], chosen_other h.data.2.1 rfl rfl rfl, h.data.2.2, h.velocity, line_fits, rfl, rfl⟩
  · intro x hx
    simp only [List.mem_cons, List.not_mem_nil, or_false] at hx
    rcases hx with rfl | rfl
    · simp [NArr.ofList]
    · intro h0
      have := (arr_isField [3] 2 (fun i k => coef (F := F) [i.headD 0] k)).wf
      rw [NArr.WF, h0, show (arr [3] 2 fun i k => coef (F := F) [i.headD 0] k).shape = [3, 2] from rfl] at this
      simp at this
  · intro d hd a ha
    obtain rfl : d = 0 := by
      have : configDims (case (F := F)).jf.cells.length = 1 := rfl
      omega
    cases ha
    exact ⟨_, rfl, by simp [NArr.ofList], rfl⟩
  · intro d n hn
    match d with
    | 0 =>
      cases hn
      refine ⟨by decide, _, rfl, ?_⟩
      have : (velMap (F := F)).fns.length = 2 := lin_ok.2
      rw [this]
      exact arr_isField [3] 2 _
    | d + 1 =>
      have : configDims (case (F := F)).jf.cells.length = 1 := rfl
      rw [this, show 1 + (d + 1) = d + 2 by omega] at hn
      cases hn
  · show Dict.get? [("num_vdim", "1"), ("num_cdim", "1"), ("grid_type", "c2p_vel"), ("time", "3")] "grid_type" = some "c2p_vel"
    decide +kernel
  · show Dict.get? [("num_vdim", "1"), ("num_cdim", "1"), ("grid_type", "c2p_vel"), ("time", "3")] "num_cdim" = some (String.ofList (dec 1))
    decide +kernel
  · show Dict.get? [("num_vdim", "1"), ("num_cdim", "1"), ("grid_type", "c2p_vel"), ("time", "3")] "num_vdim" = some (String.ofList (dec 1))
    decide +kernel

end

/-- The hypotheses of `C112_velocity` and `C112_command_velocity_partial` are met: the result has two by nine cells (three
points per cell in the velocity direction), and its last axis ten nodes. -/
example : ∃ (g : List (NArr ℚ)) (r : GData ℚ), loadDistf loadVel { args 7 with useC2pVel := true } = .ok r ∧
    (case (F := ℚ)).VelMesh velMap g ∧ HoldsField r g [4, 9] 1 fun i _ => (case (F := ℚ)).f i := by
  obtain ⟨g, r, h1, -, -, -, h2, h3⟩ := C112_velocity (F := ℚ) (a := { args 7 with useC2pVel := true }) velFiles rfl rfl rfl storedVel
  exact ⟨g, r, h1, h2, h3⟩

/-- The mapped velocity at a node: node 4 of 9 belongs to the second of three cells, a third along it. -/
example : (velMap (F := ℚ)).at 0 1 (4 / 3) = expand lin (fun k => coef [1] k) [-1 / 3] := by
  unfold VelMapping.at velMap
  norm_num

/-- Those of `C112_velocity_mapped` and of the command with `--c2p_vel --mc2nu`: the files are found. -/
example : loadVel (F := ℚ) (mapFile { args 7 with useC2pVel := true, useMc2nu := true }) none = .ok (data [⟨0, 1, 2⟩] 2 coef) ∧
    velOption [] = none ∧ mappingFile (args 7) (some []) none = some "sim-mc2nu_pos_deflated.gkyl".toList ∧
    FrameText "7".toList [7] :=
  ⟨(if_neg (by decide)).trans ((if_neg (by decide)).trans ((if_neg (by decide)).trans ((if_neg (by decide)).trans (if_pos (by decide))))),
    by decide, by decide, .inl ⟨7, by decide, rfl⟩⟩

end DistfEx

end Gk
end Pgkyl
