import Verif.Lemmas.GkDistf
import Verif.Lemmas.Growth
import Verif.Lemmas.CollectCmd
import Verif.Props.Cli
import Verif.Props.DgCommands
/-!
# C112: the distribution function of gyrokinetic data

`load_gk_distf` and the command `gk_distf` without mapped velocity grids (see Props/LoadDistfVel.lean).
-/

namespace Pgkyl
namespace Gk
open Spec Dg Cmd Space

section
variable {F : Type} [_root_.Field F] [CharZero F] [Min F] [Max F]

/-- The four files of the frame: the given ones, or those the simulation writes. -/
def DistfFiles (a : DistfArgs) (load : Str → Option Str → Except Err (GData F)) (jf jv ji : GData F) : Prop :=
  load (a.jfFile.getD (simFile a.name a.block
    (a.species ++ "_".toList ++ (if a.suffix = [] then [] else a.suffix ++ "_".toList) ++ pyStr a.frame ++ ".gkyl".toList))) none
      = .ok jf ∧
  load (a.jacobvelFile.getD (simFile a.name a.block (a.species ++ "_jacobvel.gkyl".toList))) none = .ok jv ∧
  load (a.jacobtotFile.getD (simFile a.name a.block "jacobtot_inv.gkyl".toList)) none = .ok ji

/-- The file of the mapping: `mc2nu` if asked for, otherwise `mapc2p`. -/
def mapFile (a : DistfArgs) : Str :=
  if a.useMc2nu then a.mc2nuFile.getD (simFile a.name a.block "mc2nu_pos_deflated.gkyl".toList)
  else a.mapc2pFile.getD (simFile a.name a.block "mapc2p_deflated.gkyl".toList)

omit [_root_.Field F] [CharZero F] [Min F] [Max F] in
theorem prefix_eq (name : Str) (block : Option Int) (rest : Str) :
    distfPrefix name block ++ '-' :: rest = simFile name block rest := by
  cases block <;> simp [distfPrefix, simFile]

omit [_root_.Field F] [CharZero F] [Min F] [Max F] in
theorem files_eq {a : DistfArgs} {load : Str → Option Str → Except Err (GData F)} {jf jv ji : GData F}
    (h : DistfFiles a load jf jv ji) : load a.jf none = .ok jf ∧ load a.jacobvel none = .ok jv ∧ load a.jacobtot none = .ok ji := by
  obtain ⟨h1, h2, h3⟩ := h
  rw [← prefix_eq] at h1 h2 h3
  refine ⟨?_, ?_, ?_⟩
  · rw [← h1, DistfArgs.jf]
    congr 2
    simp [frameInfix]
  · rw [← h2, DistfArgs.jacobvel]; simp
  · rw [← h3, DistfArgs.jacobtot]; simp

theorem loadDistf_eq {a : DistfArgs} {load : Str → Option Str → Except Err (GData F)} {jf jv ji : GData F}
    (hf : DistfFiles a load jf jv ji) (hv : a.useC2pVel = false) {c : DistfCase F} (h : c.Stored a.interp jf jv ji) :
    ∃ g r, IsMesh g c.jf.fine ∧ c.fineCells.length = g.length ∧ IsField r c.fineCells 1 (fun i _ => c.f i) ∧
      loadDistf load a = (distfGrid load a g).bind fun p => (GData.new a.tag [] (setGridType jf.ctx p.2)).push p.1 r := by
  obtain ⟨f1, f2, f3⟩ := files_eq hf
  obtain ⟨fj, g, v, g', w, r, e1, e2, e3, e4, hg, hr⟩ := distf_values h
  have hal := fine_cells h.data.1
  refine ⟨g, r, hg, ?_, hr, ?_⟩
  · rw [(mesh_length hg).1, DgCase.fine, refineAll_length (by rw [perCell_length, hal]), DistfCase.fineCells, List.length_zipWith,
      perCell_length, Nat.min_self, hal]
  · simp only [loadDistf, hv, Bool.false_eq_true, if_false, f1, f2, f3, e1, e2, e3, e4, bind, Except.bind]

/-- C112 without mappings: the result is one active dataset with the given tag and the metadata of the data, on the mesh of
the data with the cells split; in each of the refined cells it holds the distribution function at its midpoint: the data
divided by the Jacobian of velocity space and multiplied by the inverse of the Jacobian of configuration space.

With `use_c2p_vel` see `C112_velocity`. -/
theorem C112_distribution {a : DistfArgs} {load : Str → Option Str → Except Err (GData F)} {jf jv ji : GData F}
    (hf : DistfFiles a load jf jv ji) (hv : a.useC2pVel = false) (hn : a.useMc2nu = false) (hp : a.useMapc2p = false)
    {c : DistfCase F} (h : c.Stored a.interp jf jv ji) :
    ∃ g r, loadDistf load a = .ok r ∧ r.tag = a.tag ∧ r.status = true ∧ r.ctx.other = jf.ctx.other ∧ IsMesh g c.jf.fine ∧
      HoldsField r g c.fineCells 1 fun i _ => c.f i := by
  obtain ⟨g, v, hg, hl, hr, e⟩ := loadDistf_eq hf hv h
  obtain ⟨r, e2, hh⟩ := push_field hl.le (mesh_length hg).2 hr (GData.new a.tag [] jf.ctx)
  obtain ⟨t1, t2, t3, -, -⟩ := push_tag e2
  refine ⟨g, r, ?_, t1, t2, t3, hg, hh⟩
  rw [e]
  simp only [distfGrid, hn, hp, Bool.false_eq_true, if_false, pure, Except.pure, Except.bind]
  exact e2

/-- C112 with a mapping of configuration space: the values are the same; the axes of configuration space get nodes for the
mapped positions (taken along the first line of cells of each axis), the velocity axes stay, and the entry for the type of
the grid says so.  If both mappings are asked for, `mc2nu` is used. -/
theorem C112_mapped {a : DistfArgs} {load : Str → Option Str → Except Err (GData F)} {jf jv ji dm : GData F}
    (hf : DistfFiles a load jf jv ji) (hv : a.useC2pVel = false) (hp : a.useMc2nu = true ∨ a.useMapc2p = true)
    {c : DistfCase F} (h : c.Stored a.interp jf jv ji) (hm : load (mapFile a) none = .ok dm) {m : DgCase F}
    (hfit : m.Fits (some 1) (some "ms") a.interp dm) (hcells : m.cells = c.ji.cells) (hfields : m.cells.length * m.fns.length ≤ m.m)
    (hpos : ∀ n ∈ m.cells, 1 ≤ n) :
    ∃ g g' r, loadDistf load a = .ok r ∧ r.tag = a.tag ∧ r.status = true ∧ IsMesh g c.jf.fine ∧ IsMapped m g g' ∧
      HoldsField r g' c.fineCells 1 (fun i _ => c.f i) ∧
      Dict.get? r.ctx.other "grid_type" = some (if a.useMc2nu then "mc2nu" else "mapc2p") ∧
      ∀ k, k ≠ "grid_type" → Dict.get? r.ctx.other k = Dict.get? jf.ctx.other k := by
  obtain ⟨g, v, hg, hl, hr, e⟩ := loadDistf_eq hf hv h
  have hmf : mapFile a = if a.useMc2nu then a.mc2nu else a.mapc2p := by
    simp only [mapFile, DistfArgs.mc2nu, DistfArgs.mapc2p, ← prefix_eq]
    rfl
  have hcl : m.cells.length ≤ g.length := by
    rw [hcells, h.dims]
    have : configDims c.jf.cells.length ≤ c.jf.axes.length := by
      have := congrArg List.length h.sameMesh
      rw [fine_cells h.config.1, List.length_take, h.dims] at this
      omega
    rw [(mesh_length hg).1, DgCase.fine, refineAll_length (by rw [perCell_length, fine_cells h.data.1])]
    exact this
  rw [hmf] at hm
  obtain ⟨g', e1, hmap⟩ := applyMap_ok hm hfit hfields hpos hcl
  have hne : ∀ x ∈ g', x.data ≠ [] := by
    intro x hx
    obtain ⟨d, hd⟩ := List.getElem?_of_mem hx
    by_cases hdc : d < m.cells.length
    · obtain ⟨nodes, hx', hnodes⟩ := hmap.2.2 d _ (List.getElem?_eq_getElem hdc)
      rw [hd] at hx'
      cases hx'
      have := hnodes.count
      intro h0
      have : nodes.length = 0 := by
        have : (NArr.ofList nodes).data = nodes := rfl
        rw [← this, h0]; rfl
      omega
    · rw [hmap.2.1 d (by omega)] at hd
      exact (mesh_length hg).2 x (List.mem_of_getElem? hd)
  obtain ⟨r, e2, hh⟩ := push_field (by rw [hmap.1, hl]) hne hr
    (GData.new a.tag [] (setGridType jf.ctx (some (if a.useMc2nu then "mc2nu" else "mapc2p"))))
  obtain ⟨t1, t2, t3, -, -⟩ := push_tag e2
  refine ⟨g, g', r, ?_, t1, t2, hg, hmap, hh, ?_, ?_⟩
  · rw [e]
    cases hu : a.useMc2nu with
    | true =>
      rw [hu] at e1 e2
      simp only [if_true] at e1 e2
      simp only [distfGrid, hu, hv, if_true, e1, Bool.false_eq_true, if_false, bind, Except.bind, pure, Except.pure]
      exact e2
    | false =>
      have hp' : a.useMapc2p = true := by simpa [hu] using hp
      rw [hu] at e1 e2
      simp only [Bool.false_eq_true, if_false] at e1 e2
      simp only [distfGrid, hu, hp', hv, if_true, e1, Bool.false_eq_true, if_false, bind, Except.bind, pure, Except.pure]
      exact e2
  · rw [t3]
    exact Dict.get?_set_self _ _ _
  · intro k hk
    rw [t3]
    exact Dict.get?_set_ne _ _ hk

/-! ### The command -/

omit [_root_.Field F] [CharZero F] [Min F] [Max F] in
/-- `set_unique_labels` gives every active dataset a label that depends on its file name only. -/
theorem uniqueLabels_by_name {s : Space F} (hs : Reachable s) (hne : visited s (s.tagsOf none) ≠ []) :
    ∃ (s' : Space F) (L : Str → Str), Cli.setUniqueLabels s = .ok s' ∧ s'.dict = s.dict ∧
      ∀ j, s'.heap[j]? = (s.heap[j]?).map fun d => if j ∈ visited s (s.tagsOf none) then { d with label := L d.fileName } else d := by
  obtain ⟨items, hi, hvis⟩ := toList_visited' (s := s) (use := none) fun t ht => ht
  have hne' : items ≠ [] := by rintro rfl; exact hne (by rw [← hvis]; rfl)
  obtain ⟨s', labels, h1, h2, h3, h4, h5⟩ := C48_stored hs hi hne'
  obtain ⟨ref, -, -, h6⟩ := Cli.uniqueLabels_ok
    (names := items.map fun e => Cli.nameParts (((s.heap[e.2]?).map GData.fileName).getD [])) (by simpa using hne')
  rw [h6] at h2
  injection h2 with h2
  refine ⟨s', fun nm => labelOf (distinctive (items.map fun e => Cli.nameParts (((s.heap[e.2]?).map GData.fileName).getD [])) ref
    (Cli.nameParts nm)), h1, h3, fun j => ?_⟩
  by_cases hj : j ∈ visited s (s.tagsOf none)
  · simp only [if_pos hj]
    rw [← hvis] at hj
    obtain ⟨e, he, rfl⟩ := List.mem_map.1 hj
    obtain ⟨k, hk⟩ := List.getElem?_of_mem he
    have hl : labels[k]? = some (labelOf (distinctive (items.map fun e => Cli.nameParts (((s.heap[e.2]?).map GData.fileName).getD [])) ref
        (Cli.nameParts (((s.heap[e.2]?).map GData.fileName).getD [])))) := by
      rw [← h2]; simp [hk]
    rw [h4 k e _ hk hl]
    cases s.heap[e.2]? <;> rfl
  · simp only [if_neg hj]
    rw [h5 j (by rw [hvis]; exact hj)]
    simp

omit [_root_.Field F] [CharZero F] [Min F] [Max F] in
theorem push_name [Min F] [Max F] {d r : GData F} {g : List (NArr F)} {v : NArr F} (h : d.push g v = .ok r) :
    r.fileName = d.fileName ∧ r.customLabel = d.customLabel := by
  obtain ⟨nc, l, u, -, -, -, rfl⟩ := GData.push_eq_ok h
  exact ⟨rfl, rfl⟩

omit [CharZero F] in
theorem loadDistf_name {load : Str → Option Str → Except Err (GData F)} {a : DistfArgs} {r : GData F} (h : loadDistf load a = .ok r) :
    r.fileName = [] ∧ r.customLabel = [] ∧ r.tag = a.tag ∧ r.status = true := by
  unfold loadDistf at h
  simp only [bind, Except.bind] at h
  repeat (split at h; · cases h)
  obtain ⟨h1, h2⟩ := push_name h
  obtain ⟨t1, t2, -⟩ := push_tag h
  exact ⟨h1, h2, t1, t2⟩

omit [_root_.Field F] [CharZero F] [Min F] [Max F] in
theorem reachable_addAll {s : Space F} (hs : Reachable s) : ∀ rs : List (GData F), Reachable (rs.foldl addNew s)
  | [] => hs
  | r :: rs => reachable_addAll (hs.add r) rs

/-- The text of the option `--frame` asks for these frames: a number, or numbers with commas between them. -/
def FrameText (text : Str) (fs : List Int) : Prop := (∃ i, text = pyStr i ∧ fs = [i]) ∨ text = listText fs ∧ 2 ≤ fs.length

omit [_root_.Field F] [CharZero F] [Min F] [Max F] in
theorem frameText_ok {text : Str} {fs : List Int} (h : FrameText text fs) (stem : Str) (files : List Str) :
    frames text stem files = .ok fs := by
  rcases h with ⟨i, rfl, rfl⟩ | ⟨rfl, h⟩
  · exact C49_single i stem files
  · exact C49_list h stem files

omit [CharZero F] in
theorem addAll_ok {load : Str → Option Str → Except Err (GData F)} {A : Int → DistfArgs} : ∀ {fs : List Int} {rs : List (GData F)},
    List.Forall₂ (fun f r => loadDistf load (A f) = .ok r) fs rs → ∀ s : Space F,
    fs.foldlM (fun s f => do return s.addNew (← loadDistf load (A f))) s = .ok (rs.foldl addNew s)
  | [], [], .nil, s => rfl
  | f :: fs, r :: rs, .cons h hs, s => by
    simp only [List.foldlM_cons, h, bind, Except.bind, pure, Except.pure, List.foldl_cons]
    exact addAll_ok hs _

omit [_root_.Field F] [CharZero F] [Min F] [Max F] in
theorem visited_new {s : Space F} {rs : List (GData F)} {T : Tag} (hr : ∀ r ∈ rs, r.tag = T ∧ r.status = true) {k : Nat} (hk : k < rs.length) :
    s.heap.length + k ∈ visited (rs.foldl addNew s) ((rs.foldl addNew s).tagsOf none) := by
  have hne : rs ≠ [] := by rintro rfl; simp at hk
  have hl := foldl_addNew_lookup rs s (fun r h => (hr r h).1) T
  rw [if_pos ⟨rfl, hne⟩] at hl
  refine List.mem_flatMap.2 ⟨T, ?_, List.mem_filter.2 ⟨?_, ?_⟩⟩
  · exact (lookup_isSome_iff _ _).1 (by rw [hl]; rfl)
  · rw [hl]
    simp only [Option.getD_some, List.mem_append, List.mem_range'_1]
    right; omega
  · have : (rs.foldl addNew s).heap[s.heap.length + k]? = some rs[k] := by
      rw [foldl_addNew_heap, List.getElem?_append_right (by omega)]
      simp [hk]
    simp only [active, this]
    exact (hr _ (List.getElem_mem hk)).2

omit [CharZero F] in
/-- The store after `gk_distf`, when the datasets of the frames can be loaded. -/
theorem command_store {s : Space F} (hs : Reachable s) {text : Str} {fs : List Int} (ht : FrameText text fs) (a : DistfArgs)
    (load : Str → Option Str → Except Err (GData F)) (glob : Str → List Str) (vel mc2nu mapc2p : Option Str)
    {P : Int → GData F → Prop} (h1 : ∀ f ∈ fs, ∃ r, loadDistf load (a.at vel mc2nu mapc2p f) = .ok r ∧ P f r) :
    ∃ (s' : Space F) (rs : List (GData F)), gkDistf load glob text a vel mc2nu mapc2p s = .ok s' ∧ List.Forall₂ P fs rs ∧
      (∀ t, s'.lookup t = if t = a.tag then some ((s.lookup t).getD [] ++ List.range' s.heap.length fs.length) else s.lookup t) ∧
      (fs.length = 1 → s'.heap = s.heap ++ rs) ∧
      ∀ j : Nat, ∃ l : Str, s'.heap[j]? = ((s.heap ++ rs)[j]?).map fun d : GData F => { d with label := l } := by
  obtain ⟨rs, h2⟩ := Collect.forall₂_exists h1
  have h3 := h2.imp fun f r h => h.1
  have h4 := h2.imp fun f r h => h.2
  have hlen : rs.length = fs.length := h2.length_eq.symm
  have hne : fs ≠ [] := by
    rcases ht with ⟨i, -, rfl⟩ | ⟨-, h⟩
    · simp
    · rintro rfl; simp at h
  have hrs : ∀ r ∈ rs, r.tag = a.tag ∧ r.status = true := by
    intro r hr
    obtain ⟨k, hk, rfl⟩ := List.getElem_of_mem hr
    have := loadDistf_name ((List.forall₂_iff_get.1 h3).2 k (by omega) hk)
    exact ⟨this.2.2.1, this.2.2.2⟩
  have hadd := addAll_ok h3 s
  have hlk := foldl_addNew_lookup rs s (fun r h => (hrs r h).1)
  have hrs0 : rs ≠ [] := by rintro rfl; exact hne (List.length_eq_zero_iff.1 (by simpa using hlen.symm))
  by_cases hone : fs.length ≤ 1
  · refine ⟨rs.foldl addNew s, rs, ?_, h4, ?_, fun _ => foldl_addNew_heap rs s, fun j => ?_⟩
    · unfold gkDistf
      simp only [frameText_ok ht, bind, Except.bind] at hadd ⊢
      rw [hadd]
      simp only [if_neg (show ¬ 1 < fs.length by omega)]
      rfl
    · intro t
      rw [hlk t, hlen]
      simp only [hrs0, ne_eq, not_false_eq_true, and_true]
    · rw [foldl_addNew_heap]
      cases (s.heap ++ rs)[j]? with
      | none => exact ⟨[], rfl⟩
      | some d => exact ⟨d.label, rfl⟩
  · obtain ⟨s', L, e1, e2, e3⟩ := uniqueLabels_by_name (reachable_addAll hs rs)
      (List.ne_nil_of_mem (visited_new (s := s) hrs (k := 0) (by omega)))
    refine ⟨s', rs, ?_, h4, ?_, fun h => absurd h (by omega), fun j => ?_⟩
    · unfold gkDistf
      simp only [frameText_ok ht, bind, Except.bind] at hadd ⊢
      rw [hadd]
      simp only [if_pos (show 1 < fs.length by omega)]
      exact e1
    · intro t
      have : s'.lookup t = (rs.foldl addNew s).lookup t := by unfold Space.lookup; rw [e2]
      rw [this, hlk t, hlen]
      simp only [hrs0, ne_eq, not_false_eq_true, and_true]
    · rw [e3 j, foldl_addNew_heap]
      cases (s.heap ++ rs)[j]? with
      | none => exact ⟨[], rfl⟩
      | some d =>
        by_cases hj : j ∈ visited (rs.foldl addNew s) ((rs.foldl addNew s).tagsOf none)
        · exact ⟨L d.fileName, by simp only [Option.map_some, if_pos hj]⟩
        · exact ⟨d.label, by simp only [if_neg hj, Option.map_some]⟩

/-- C112: `gk_distf` adds one dataset per frame to the store, in the order of the frames, listed under the tag; nothing else
is added or taken away.  For one frame nothing else changes; for several only labels do.

Full statement: for several frames the labels tell them apart.  That is false, see `C112_labels_fails`. -/
theorem C112_command_partial {s : Space F} (hs : Reachable s) {text : Str} {fs : List Int} (ht : FrameText text fs) (a : DistfArgs)
    (load : Str → Option Str → Except Err (GData F)) (glob : Str → List Str) (J : Int → GData F) {jv ji : GData F}
    (C : Int → DistfCase F)
    (hf : ∀ f ∈ fs, DistfFiles { a with frame := f } load (J f) jv ji ∧ (C f).Stored a.interp (J f) jv ji) :
    ∃ (s' : Space F) (rs : List (GData F)), gkDistf load glob text a none none none s = .ok s' ∧
      List.Forall₂ (fun f r => r.tag = a.tag ∧ r.status = true ∧ r.ctx.other = (J f).ctx.other ∧
        ∃ g, IsMesh g (C f).jf.fine ∧ HoldsField r g (C f).fineCells 1 fun i _ => (C f).f i) fs rs ∧
      (∀ t, s'.lookup t = if t = a.tag then some ((s.lookup t).getD [] ++ List.range' s.heap.length fs.length) else s.lookup t) ∧
      (fs.length = 1 → s'.heap = s.heap ++ rs) ∧
      ∀ j : Nat, ∃ l : Str, s'.heap[j]? = ((s.heap ++ rs)[j]?).map fun d : GData F => { d with label := l } := by
  refine command_store hs ht a load glob none none none fun f hff => ?_
  obtain ⟨k1, k2⟩ := hf f hff
  obtain ⟨g, r, e1, e2, e3, e4, e5, e6⟩ := C112_distribution (a := a.at none none none f) k1 rfl rfl rfl k2
  exact ⟨r, e1, e2, e3, e4, g, e5, e6⟩

/-- The mapping file that the options `--mc2nu` and `--mapc2p` ask for: `--mc2nu` goes first; an option given without a file
name (an empty text) means the file that the simulation writes. -/
def mappingFile (a : DistfArgs) : Option Str → Option Str → Option Str
  | some f, _ => some (if f = [] then simFile a.name a.block "mc2nu_pos_deflated.gkyl".toList else f)
  | none, some f => some (if f = [] then simFile a.name a.block "mapc2p_deflated.gkyl".toList else f)
  | none, none => none

omit [_root_.Field F] [CharZero F] [Min F] [Max F] in
theorem mappingFile_at {a : DistfArgs} {mc2nu mapc2p : Option Str} {file : Str} (h : mappingFile a mc2nu mapc2p = some file) (f : Int) :
    mapFile (a.at none mc2nu mapc2p f) = file ∧ (a.at none mc2nu mapc2p f).useMc2nu = mc2nu.isSome ∧
      ((a.at none mc2nu mapc2p f).useMc2nu = true ∨ (a.at none mc2nu mapc2p f).useMapc2p = true) := by
  rcases mc2nu with _ | (_ | ⟨c, cs⟩) <;> rcases mapc2p with _ | (_ | ⟨d, ds⟩) <;>
    simp_all [mappingFile, mapFile, DistfArgs.at, optionalFile]

/-- C112: the same for `gk_distf --mc2nu` or `--mapc2p`, with or without the name of a file: the datasets are on the mapped
grid, and their entry for the type of the grid says so.  (Labels as above.) -/
theorem C112_command_mapped_partial {s : Space F} (hs : Reachable s) {text : Str} {fs : List Int} (ht : FrameText text fs)
    (a : DistfArgs) (load : Str → Option Str → Except Err (GData F)) (glob : Str → List Str) (J : Int → GData F) {jv ji dm : GData F}
    (C : Int → DistfCase F)
    (hf : ∀ f ∈ fs, DistfFiles { a with frame := f } load (J f) jv ji ∧ (C f).Stored a.interp (J f) jv ji)
    {mc2nu mapc2p : Option Str} {file : Str} (hfile : mappingFile a mc2nu mapc2p = some file) (hm : load file none = .ok dm)
    {m : DgCase F} (hfit : m.Fits (some 1) (some "ms") a.interp dm) (hcells : ∀ f ∈ fs, m.cells = (C f).ji.cells)
    (hfields : m.cells.length * m.fns.length ≤ m.m) (hpos : ∀ n ∈ m.cells, 1 ≤ n) :
    ∃ (s' : Space F) (rs : List (GData F)), gkDistf load glob text a none mc2nu mapc2p s = .ok s' ∧
      List.Forall₂ (fun f r => r.tag = a.tag ∧ r.status = true ∧
        (∃ g g', IsMesh g (C f).jf.fine ∧ IsMapped m g g' ∧ HoldsField r g' (C f).fineCells 1 fun i _ => (C f).f i) ∧
        Dict.get? r.ctx.other "grid_type" = some (if mc2nu.isSome then "mc2nu" else "mapc2p") ∧
        ∀ k, k ≠ "grid_type" → Dict.get? r.ctx.other k = Dict.get? (J f).ctx.other k) fs rs ∧
      (∀ t, s'.lookup t = if t = a.tag then some ((s.lookup t).getD [] ++ List.range' s.heap.length fs.length) else s.lookup t) ∧
      (fs.length = 1 → s'.heap = s.heap ++ rs) ∧
      ∀ j : Nat, ∃ l : Str, s'.heap[j]? = ((s.heap ++ rs)[j]?).map fun d : GData F => { d with label := l } := by
  refine command_store hs ht a load glob none mc2nu mapc2p fun f hff => ?_
  obtain ⟨k1, k2⟩ := hf f hff
  obtain ⟨m1, m2, m3⟩ := mappingFile_at hfile f
  rw [← m1] at hm
  obtain ⟨g, g', r, e1, e2, e3, e4, e5, e6, e7, e8⟩ :=
    C112_mapped (a := a.at none mc2nu mapc2p f) k1 rfl m3 k2 hm hfit (hcells f hff) hfields hpos
  rw [m2] at e7
  exact ⟨r, e1, e2, e3, ⟨g, g', e4, e5, e6⟩, e7, e8⟩

omit [CharZero F] in
theorem addAll_inv {load : Str → Option Str → Except Err (GData F)} {A : Int → DistfArgs} : ∀ {fs : List Int} {s s1 : Space F},
    fs.foldlM (fun s f => do return s.addNew (← loadDistf load (A f))) s = .ok s1 →
    ∃ rs, List.Forall₂ (fun f r => loadDistf load (A f) = .ok r) fs rs ∧ s1 = rs.foldl addNew s
  | [], s, s1, h => ⟨[], .nil, by injection h with h; exact h.symm⟩
  | f :: fs, s, s1, h => by
    rw [List.foldlM_cons] at h
    cases hr : loadDistf load (A f) with
    | error e => simp only [hr, bind, Except.bind] at h; cases h
    | ok r =>
      simp only [hr, bind, Except.bind, pure, Except.pure] at h
      obtain ⟨rs, h1, h2⟩ := addAll_inv h
      exact ⟨r :: rs, .cons hr h1, h2⟩

omit [CharZero F] in
/-- C112 fails for the labels of several frames: the datasets carry no file name, so they all get the same label, and plots
cannot tell them apart. -/
theorem C112_labels_fails {s : Space F} (hs : Reachable s) {text : Str} {fs : List Int} (ht : FrameText text fs) (h2 : 2 ≤ fs.length)
    (a : DistfArgs) (load : Str → Option Str → Except Err (GData F)) (glob : Str → List Str) (vel mc2nu mapc2p : Option Str)
    {s' : Space F} (h : gkDistf load glob text a vel mc2nu mapc2p s = .ok s') :
    ∃ l, ∀ k < fs.length, ∃ r, s'.heap[s.heap.length + k]? = some r ∧ r.getLabel = l := by
  unfold gkDistf at h
  simp only [frameText_ok ht, bind, Except.bind] at h
  split at h
  · cases h
  · rename_i s1 hs1
    obtain ⟨rs, hrs, rfl⟩ := addAll_inv hs1
    have hlen : rs.length = fs.length := hrs.length_eq.symm
    have hr : ∀ r ∈ rs, r.fileName = [] ∧ r.customLabel = [] ∧ r.tag = a.tag ∧ r.status = true := by
      intro r hr
      obtain ⟨k, hk, rfl⟩ := List.getElem_of_mem hr
      have := loadDistf_name ((List.forall₂_iff_get.1 hrs).2 k (by omega) hk)
      exact this
    have hv : ∀ k < rs.length, s.heap.length + k ∈ visited (rs.foldl addNew s) ((rs.foldl addNew s).tagsOf none) :=
      fun k hk => visited_new (T := a.tag) (fun r h => (hr r h).2.2) hk
    obtain ⟨s2, L, e1, e2, e3⟩ := uniqueLabels_by_name (reachable_addAll hs rs) (List.ne_nil_of_mem (hv 0 (by omega)))
    rw [if_pos (by omega), e1] at h
    injection h with h
    subst h
    refine ⟨L [], fun k hk => ?_⟩
    have hk' : k < rs.length := by omega
    obtain ⟨n1, n2, -, -⟩ := hr rs[k] (List.getElem_mem hk')
    refine ⟨{ rs[k] with label := L [] }, ?_, by simp [GData.getLabel, n2]⟩
    rw [e3, foldl_addNew_heap, List.getElem?_append_right (by omega)]
    simp only [Nat.add_sub_cancel_left, List.getElem?_eq_getElem hk', Option.map_some, if_pos (hv k hk'), n1]

end

namespace DistfEx
open DgEx (src src_onMesh axes axes_dx coef)

section
variable {F : Type} [_root_.Field F]

/-- The functions of the basis for one configuration and one velocity space direction. -/
def hyb : List Poly := ((interpFns 2 1 "gkhybrid" true).toOption).getD []
/-- The functions of the basis on a line. -/
def lin : List Poly := ((interpFns 1 1 "serendipity" true).toOption).getD []

theorem hyb_ok : interpFns 2 1 "gkhybrid" true = .ok hyb ∧ hyb.length = 6 := by decide +kernel
theorem lin_ok : interpFns 1 1 "serendipity" true = .ok lin ∧ lin.length = 2 := by decide +kernel

/-- A dataset with these cells and numbers. -/
def data (ax : List (Axis F)) (m : Nat) (f : List Nat → Nat → F) : GData F :=
  { grid := some (src ax m f).grid, values := some (src ax m f).values
    ctx := { cells := some (ax.map (·.cells)), numComps := some m, other := [("grid_type", "uniform"), ("time", "3")] } }

/-- Data on 2 × 3 cells, a Jacobian per cell, and the inverse Jacobian on the two cells of configuration space. -/
def case : DistfCase F where
  jf := ⟨[2, 3], axes, 6, coef, 1, "gkhybrid", hyb, 2⟩
  jv := fun c => coef c 0
  ji := ⟨[2], [⟨0, 1, 2⟩], 2, coef, 1, "serendipity", lin, 2⟩

/-- The files. -/
def load (name : Str) (_ : Option Str) : Except Err (GData F) :=
  if name = "sim-ion_7.gkyl".toList ∨ name = "sim-ion_8.gkyl".toList then .ok (data axes 6 coef)
  else if name = "sim-ion_jacobvel.gkyl".toList then .ok (data axes 1 fun c _ => coef c 0)
  else if name = "sim-jacobtot_inv.gkyl".toList then .ok (data [⟨0, 1, 2⟩] 2 coef)
  else if name = "sim-mc2nu_pos_deflated.gkyl".toList then .ok (data [⟨0, 1, 2⟩] 2 coef)
  else .error .osError

/-- The arguments. -/
def args (f : Int) : DistfArgs := { name := "sim".toList, species := "ion".toList, frame := f }

theorem files (f : Int) (hf : f = 7 ∨ f = 8) :
    DistfFiles (args f) (load (F := F)) (data axes 6 coef) (data axes 1 fun c _ => coef c 0) (data [⟨0, 1, 2⟩] 2 coef) := by
  rcases hf with rfl | rfl
  · refine ⟨?_, ?_, ?_⟩
    · exact if_pos (by decide)
    · exact (if_neg (by decide)).trans (if_pos (by decide))
    · exact (if_neg (by decide)).trans ((if_neg (by decide)).trans (if_pos (by decide)))
  · refine ⟨?_, ?_, ?_⟩
    · exact if_pos (by decide)
    · exact (if_neg (by decide)).trans (if_pos (by decide))
    · exact (if_neg (by decide)).trans ((if_neg (by decide)).trans (if_pos (by decide)))

variable [CharZero F]

theorem line_fits : (case (F := F)).ji.Fits (some 1) (some "ms") none (data [⟨0, 1, 2⟩] 2 coef) := by
  have ho := src_onMesh (F := F) (axes := [⟨0, 1, 2⟩]) (by simp) (by simp) 2 coef
  refine ⟨⟨⟨_, ⟨rfl, by simp [src, case], (mesh_length ho.grid).2, _, rfl, ho.values⟩, ho.grid⟩, ⟨rfl, rfl⟩, ?_, rfl, by simp [case], by simp [case]⟩,
    ⟨.inl rfl, .inl ⟨"ms", rfl, by simp [case, basisNames]⟩, .inr ⟨rfl, rfl⟩, le_rfl⟩,
    ⟨lin_ok.1, fun _ => by simp [case], fun h => by simp [case] at h, by simp [case, lin_ok.2]⟩⟩
  show Dict.get? [("grid_type", "uniform"), ("time", "3")] "grid_type" = some "uniform"
  decide +kernel

theorem stored : (case (F := F)).Stored none (data axes 6 coef) (data axes 1 fun c _ => coef c 0) (data [⟨0, 1, 2⟩] 2 coef) := by
  have ho := src_onMesh (F := F) (axes := axes) axes_dx (by simp [axes]) 6 coef
  have hv := src_onMesh (F := F) (axes := axes) axes_dx (by simp [axes]) 1 fun c _ => coef c 0
  refine ⟨⟨⟨⟨_, ⟨rfl, by simp [src, case, axes], (mesh_length ho.grid).2, _, rfl, ho.values⟩, ho.grid⟩, ⟨rfl, rfl⟩, ?_, rfl, axes_dx, by simp [case]⟩,
    ⟨.inl rfl, .inl ⟨"gkhyb", rfl, by simp [case, basisNames]⟩, .inr ⟨rfl, rfl⟩, le_rfl⟩,
    ⟨hyb_ok.1, fun h => by simp [case] at h, fun h => by simp [case] at h, by simp [case, hyb_ok.2]⟩⟩,
    ⟨_, rfl, by simp [src, case, axes], (mesh_length hv.grid).2, _, rfl, hv.values⟩, line_fits, rfl, rfl⟩
  show Dict.get? [("grid_type", "uniform"), ("time", "3")] "grid_type" = some "uniform"
  decide +kernel

end

/-- The hypotheses of `C112_distribution` and `C112_command_partial` are met: frames 7 and 8 of a simulation. -/
example : FrameText "7,8".toList [7, 8] ∧ ∀ f ∈ [7, 8], DistfFiles (args f) (load (F := ℚ)) (data axes 6 coef)
    (data axes 1 fun c _ => coef c 0) (data [⟨0, 1, 2⟩] 2 coef) ∧
      (case (F := ℚ)).Stored none (data axes 6 coef) (data axes 1 fun c _ => coef c 0) (data [⟨0, 1, 2⟩] 2 coef) :=
  ⟨.inr ⟨by decide, by decide⟩, fun f hf => ⟨files f (by simpa using hf), stored⟩⟩

/-- Those of `C112_mapped` are met: the mapping is the file `sim-mc2nu_pos_deflated.gkyl`. -/
example : load (F := ℚ) (mapFile { args 7 with useMc2nu := true, useMapc2p := true }) none = .ok (data [⟨0, 1, 2⟩] 2 coef) ∧
    (case (F := ℚ)).ji.Fits (some 1) (some "ms") none (data [⟨0, 1, 2⟩] 2 coef) ∧ ∀ n ∈ (case (F := ℚ)).ji.cells, 1 ≤ n :=
  ⟨(if_neg (by decide)).trans ((if_neg (by decide)).trans ((if_neg (by decide)).trans (if_pos (by decide)))), line_fits, by simp [case]⟩

/-- Those of `C112_command_mapped_partial` are met: `--mc2nu` with or without the name of the file. -/
example : mappingFile (args 7) (some []) none = some "sim-mc2nu_pos_deflated.gkyl".toList ∧
    mappingFile (args 7) (some "sim-mc2nu_pos_deflated.gkyl".toList) (some []) = some "sim-mc2nu_pos_deflated.gkyl".toList ∧
    mappingFile (args 7) none (some []) = some "sim-mapc2p_deflated.gkyl".toList := by decide

end DistfEx
end Gk
end Pgkyl
