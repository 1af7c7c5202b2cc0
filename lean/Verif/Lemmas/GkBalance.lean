import Verif.Lemmas.Gk
/-!
# Lemmas on the balance commands
-/

namespace Pgkyl
namespace Gk
open Spec Space

section
variable {F : Type} [_root_.Field F]

theorem sum_filterMap {ι : Type} (f : ι → Option (Series F)) (k i : Nat) (l : List ι) :
    ((l.filterMap f).map fun s => tabEntry (some s) k i).sum = (l.map fun e => tabEntry (f e) k i).sum := by
  induction l with
  | nil => rfl
  | cons a l ih =>
    rw [List.filterMap_cons]
    cases h : f a with
    | none =>
      have : tabEntry (none : Option (Series F)) k i = 0 := rfl
      simp [ih, h, this]
    | some s => simp [ih, h]

omit [_root_.Field F] in
theorem fileOf_eq {fs : Str → Option (Series F)} {o : Files} (ho : o.Default) (multib : Str) (b : Nat)
    (rest : String) : fs (blockPrefix o multib b ++ rest.toList) = fileOf fs o multib b rest := by
  rw [blockPrefix_eq ho.path ho.name, fileOf]

theorem optFile_nil (d : Str) : optFile [] d = .ok d := rfl

omit [_root_.Field F] in
theorem bflux_files {fs : Str → Option (Series F)} {o : Files} (ho : o.Default) (multib : Str) (b : Nat)
    (spec : String) :
    ∃ fl, (boundaries.zip o.bflux).mapM (bfluxFile (blockPrefix o multib b ++ spec.toList)) = .ok fl ∧
      fl.filterMap fs = edges.filterMap fun e =>
        fileOf fs o multib b (spec ++ "_bflux_" ++ e ++ "_integrated_HamiltonianMoments.gkyl") := by
  have h : ∀ e : String, fs (blockPrefix o multib b ++ spec.toList ++ "_bflux_".toList ++ e.toList ++
        "_integrated_HamiltonianMoments.gkyl".toList) =
      fileOf fs o multib b (spec ++ "_bflux_" ++ e ++ "_integrated_HamiltonianMoments.gkyl") := by
    intro e
    rw [← fileOf_eq ho, String.toList_append, String.toList_append, String.toList_append]
    simp only [List.append_assoc]
  refine ⟨edges.map fun e => blockPrefix o multib b ++ spec.toList ++ "_bflux_".toList ++ e.toList ++
        "_integrated_HamiltonianMoments.gkyl".toList, ?_, ?_⟩
  · rw [ho.bflux]
    simp only [boundaries, edges, List.map_cons, List.map_nil, List.replicate, List.zip_cons_cons, List.zip_nil_right,
      List.mapM_cons, List.mapM_nil, bfluxFile, optFile, bind, Except.bind, pure, Except.pure]
  · rw [List.filterMap_map]
    exact List.filterMap_congr fun e _ => h e

theorem blocksFor_eq {o : Files} (ho : o.fdot = []) {k : Nat} {text : Str} {bs : List Int} (hb : Blocks k text bs) :
    blocksFor o text k = .ok bs := by
  rw [blocksFor, if_neg (fun h => h.2 ho), (blocks_eq hb).2]

theorem dtFile_eq (o : Files) : dtFileOf o = timeStepFile o.path o.name o.dt := by
  by_cases h : o.dt = [] <;> simp [dtFileOf, timeStepFile, h]

/-- The term of a species in a block, in terms of the files. -/
noncomputable def theTerm (file : Nat → String → Option (Series F)) (spec : String) (n k b : Nat) : Term F :=
  { timeFdot := ((file b (spec ++ "_fdot_integrated_moms.gkyl")).map (·.time)).getD []
    fdot := vec n (rate file spec k b)
    timeSrc := (file b (spec ++ "_source_integrated_moms.gkyl")).map (·.time)
    src := vec n (tabEntry (file b (spec ++ "_source_integrated_moms.gkyl")) k)
    timeBflux := (edges.filterMap fun e =>
      file b (spec ++ "_bflux_" ++ e ++ "_integrated_HamiltonianMoments.gkyl")).map (·.time)
    bflux := vec n (outflow file spec k b) }

theorem theTerm_is (file : Nat → String → Option (Series F)) (spec : String) (n k b : Nat) :
    TermIs n (rate file spec k b) (tabEntry (file b (spec ++ "_source_integrated_moms.gkyl")) k)
      (outflow file spec k b) (theTerm file spec n k b) := ⟨rfl, rfl, rfl⟩

theorem termOf_files {file : Nat → String → Option (Series F)} {spec : String} {n m k b : Nat} (hn : 2 ≤ n)
    (hm : 2 ≤ m) (hk : k < m) (hf : SpeciesFiles file spec n m b) :
    ∃ fd, file b (spec ++ "_fdot_integrated_moms.gkyl") = some fd ∧
      termOf k fd (file b (spec ++ "_source_integrated_moms.gkyl"))
        (edges.filterMap fun e => file b (spec ++ "_bflux_" ++ e ++ "_integrated_HamiltonianMoments.gkyl")) =
      .ok (theTerm file spec n k b) := by
  obtain ⟨fd, h1, h2⟩ := hf.fdot
  refine ⟨fd, h1, ?_⟩
  rw [termOf_ok hn hm hk h2 hf.src]
  · congr 1
    simp only [theTerm, h1, Option.map_some, Option.getD_some]
    congr 1
    · exact vec_congr fun i _ => by rw [rate, h1]
    · exact vec_congr fun i _ => by rw [outflow, sum_filterMap]
  · intro s hs
    obtain ⟨e, he, hs⟩ := List.mem_filterMap.1 hs
    exact hf.bflux e he s hs

theorem speciesTerm_ok {fs : Str → Option (Series F)} {o : Files} (ho : o.Default) {multib : Str} {spec : String}
    {n m k b : Nat} (hn : 2 ≤ n) (hm : 2 ≤ m) (hk : k < m) (hf : SpeciesFiles (fileOf fs o multib) spec n m b) :
    speciesTerm k fs o (blockPrefix o multib b ++ spec.toList) = .ok (theTerm (fileOf fs o multib) spec n k b) := by
  obtain ⟨fd, h1, h2⟩ := termOf_files (k := k) hn hm hk hf
  have e1 : fs (blockPrefix o multib b ++ spec.toList ++ "_fdot_integrated_moms.gkyl".toList) = some fd := by
    rw [← h1, ← fileOf_eq ho, String.toList_append, List.append_assoc]
  have e2 : fs (blockPrefix o multib b ++ spec.toList ++ "_source_integrated_moms.gkyl".toList) =
      fileOf fs o multib b (spec ++ "_source_integrated_moms.gkyl") := by
    rw [← fileOf_eq ho, String.toList_append, List.append_assoc]
  obtain ⟨fl, e3, e4⟩ := bflux_files (fs := fs) ho multib b spec
  simp only [speciesTerm, ho.fdot, ho.source, optFile_nil, bind, Except.bind, e1, e2, e3, e4, h2]

theorem particleTerm_ok {fs : Str → Option (Series F)} {o : Files} (ho : o.Default) {multib : Str} {spec : String}
    {n m b : Nat} (hn : 2 ≤ n) (hm : 2 ≤ m) (hf : SpeciesFiles (fileOf fs o multib) spec n m b) :
    particleTerm fs o multib spec.toList b = .ok (theTerm (fileOf fs o multib) spec n 0 b) :=
  speciesTerm_ok ho hn hm (by omega) hf

theorem energyTerm_ok {fs : Str → Option (Series F)} {o : Files} (ho : o.Default) {multib : Str} {spec : String}
    {n m b : Nat} (hn : 2 ≤ n) (hm : 3 ≤ m) (hf : SpeciesFiles (fileOf fs o multib) spec n m b) :
    energyTerm fs o multib b spec.toList = .ok (theTerm (fileOf fs o multib) spec n 2 b) :=
  speciesTerm_ok ho hn (by omega) (by omega) hf

/-- The result of a balance in terms of its sums. -/
theorem balanceOut_ok {n : Nat} (hn : 2 ≤ n) {s : Sums F} {fd sr bf : Nat → F} {t : Term F}
    (h : SumsIs n fd sr bf t s) (hf : s.fieldDot = none) :
    balanceOut s = .ok ([⟨"fdot", [t.timeFdot], vec n fd⟩]
      ++ (match t.timeSrc with | some ts => [⟨"src", [ts], vec n fun i => if i = 0 then 0 else sr i⟩] | none => [])
      ++ (if t.timeBflux = [] then [] else [⟨"bflux", t.timeBflux, vec n fun i => -bf i⟩])
      ++ [⟨"err", [t.timeFdot], vec n fun i => (if i = 0 then 0 else sr i) - bf i - fd i⟩]) := by
  have hz : zeroFirst (vec n sr) = .ok (vec n fun i => if i = 0 then 0 else sr i) := by
    obtain ⟨n, rfl⟩ : ∃ k, n = k + 1 := ⟨n - 1, by omega⟩
    simp only [vec, List.range_succ_eq_map, List.map_cons, List.map_map, zeroFirst, Function.comp_def]
    simp
  simp only [balanceOut, h.fdot, h.src, h.bflux, h.last, hf, bind, Except.bind, hz, pure, Except.pure, subArr_vec,
    map_vec, List.append_nil]
  cases t.timeSrc <;> rfl

theorem balanceOut_field {n : Nat} (hn : 2 ≤ n) {s : Sums F} {fd sr bf fe : Nat → F} {t : Term F}
    (h : SumsIs n fd sr bf t s) (hf : s.fieldDot = some (vec n fe)) :
    balanceOut s = .ok ([⟨"fdot", [t.timeFdot], vec n fd⟩]
      ++ (match t.timeSrc with | some ts => [⟨"src", [ts], vec n fun i => if i = 0 then 0 else sr i⟩] | none => [])
      ++ (if t.timeBflux = [] then [] else [⟨"bflux", t.timeBflux, vec n fun i => -bf i⟩])
      ++ [⟨"field_dot", [s.timeField], vec n fe⟩]
      ++ [⟨"err", [t.timeFdot], vec n fun i => (if i = 0 then 0 else sr i) - bf i - (fd i - fe i)⟩]) := by
  have hz : zeroFirst (vec n sr) = .ok (vec n fun i => if i = 0 then 0 else sr i) := by
    obtain ⟨n, rfl⟩ : ∃ k, n = k + 1 := ⟨n - 1, by omega⟩
    simp only [vec, List.range_succ_eq_map, List.map_cons, List.map_map, zeroFirst, Function.comp_def]
    simp
  simp only [balanceOut, h.fdot, h.src, h.bflux, h.last, hf, bind, Except.bind, hz, pure, Except.pure, subArr_vec,
    map_vec]
  cases t.timeSrc <;> rfl

theorem particleSums_ok {fs : Str → Option (Series F)} {o : Files} (ho : o.Default) {multib : Str} {spec : String}
    {n m nb : Nat} (hn : 2 ≤ n) (hm : 2 ≤ m)
    (hf : ∀ b < nb + 1, SpeciesFiles (fileOf fs o multib) spec n m b) :
    ∃ s, particleSums fs o multib spec.toList (nb + 1) = .ok s ∧
      SumsIs n (fun i => ((List.range (nb + 1)).map fun b => rate (fileOf fs o multib) spec 0 b i).sum)
        (fun i => ((List.range (nb + 1)).map fun b =>
          tabEntry (fileOf fs o multib b (spec ++ "_source_integrated_moms.gkyl")) 0 i).sum)
        (fun i => ((List.range (nb + 1)).map fun b => outflow (fileOf fs o multib) spec 0 b i).sum)
        (theTerm (fileOf fs o multib) spec n 0 nb) s ∧ s.fieldDot = none := by
  have hne : List.range (nb + 1) ≠ [] := by simp
  have hl : (List.range (nb + 1)).getLast hne = nb := by simp
  have := foldlM_add_all (n := n) (g := particleTerm fs o multib spec.toList)
    (t := theTerm (fileOf fs o multib) spec n 0) hne
    (fun b hb => ⟨particleTerm_ok ho hn hm (hf b (List.mem_range.1 hb)), theTerm_is _ _ _ _ _⟩)
  rw [hl] at this
  exact this

/-! ## Energy -/

theorem energyBlock_first {fs : Str → Option (Series F)} {o : Files} (ho : o.Default) {multib : Str}
    {specs : List String} (hs : specs ≠ []) {n m b : Nat} (hn : 2 ≤ n) (hm : 3 ≤ m)
    (hf : ∀ spec ∈ specs, SpeciesFiles (fileOf fs o multib) spec n m b)
    {fe : Series F} (hfe : fileOf fs o multib b "field_energy_dot.gkyl" = some fe) (hft : IsTable n 1 fe) :
    ∃ s, energyBlock fs o multib (specs.map String.toList) {} b = .ok s ∧
      SumsIs n (fun i => (specs.map fun spec => rate (fileOf fs o multib) spec 2 b i).sum)
        (fun i => (specs.map fun spec =>
          tabEntry (fileOf fs o multib b (spec ++ "_source_integrated_moms.gkyl")) 2 i).sum)
        (fun i => (specs.map fun spec => outflow (fileOf fs o multib) spec 2 b i).sum)
        (theTerm (fileOf fs o multib) (specs.getLast hs) n 2 b) s ∧
      s.fieldDot = some (vec n (tabEntry (fileOf fs o multib b "field_energy_dot.gkyl") 0)) ∧ s.timeField = fe.time ∧
    ∀ (s0 : Sums F) (fd sr bf e0 : Nat → F) (t0 : Term F), SumsIs n fd sr bf t0 s0 → s0.fieldDot = some (vec n e0) →
      ∃ s', energyBlock fs o multib (specs.map String.toList) s0 b = .ok s' ∧
        SumsIs n (fun i => fd i + (specs.map fun spec => rate (fileOf fs o multib) spec 2 b i).sum)
        (fun i => sr i + (specs.map fun spec =>
          tabEntry (fileOf fs o multib b (spec ++ "_source_integrated_moms.gkyl")) 2 i).sum)
        (fun i => bf i + (specs.map fun spec => outflow (fileOf fs o multib) spec 2 b i).sum)
        (theTerm (fileOf fs o multib) (specs.getLast hs) n 2 b) s' ∧
        s'.fieldDot = some (vec n fun i => e0 i + tabEntry (fileOf fs o multib b "field_energy_dot.gkyl") 0 i) ∧
        s'.timeField = fe.time := by
  have e1 : fs (blockPrefix o multib b ++ "field_energy_dot.gkyl".toList) = some fe := by
    rw [← hfe, ← fileOf_eq ho]
  obtain ⟨ps, e2, h2, _⟩ := foldlM_add_all (n := n) (g := fun spec : String => energyTerm fs o multib b spec.toList)
    (t := fun spec => theTerm (fileOf fs o multib) spec n 2 b) hs
    (fun spec hsp => ⟨energyTerm_ok ho hn hm (hf spec hsp), theTerm_is _ _ _ _ _⟩)
  have e3 : (specs.map String.toList).foldlM (fun (p : Sums F) spec => do
      p.add (← energyTerm fs o multib b spec)) {} = .ok ps := by
    rw [List.foldlM_map]; exact e2
  have e4 := onlyColumn_ok hft
  simp only [bind, Except.bind] at e3
  rw [hfe]
  refine ⟨{ fdot := ps.fdot, src := ps.src, bflux := ps.bflux, fieldDot := some (vec n (tabEntry (some fe) 0)),
            last := ps.last, timeField := fe.time }, ?_, ⟨h2.fdot, h2.src, h2.bflux, h2.last⟩, rfl, rfl, ?_⟩
  · simp only [energyBlock, ho.fieldDot, optFile_nil, e1, e4, e3, bind, Except.bind, h2.fdot, h2.src, h2.bflux, accumulate, pure, Except.pure]
  · intro s0 fd sr bf e0 t0 h0 h0'
    refine ⟨{ fdot := some (vec n fun i => fd i + (specs.map fun spec => rate (fileOf fs o multib) spec 2 b i).sum)
              src := some (vec n fun i => sr i + (specs.map fun spec =>
                tabEntry (fileOf fs o multib b (spec ++ "_source_integrated_moms.gkyl")) 2 i).sum)
              bflux := some (vec n fun i => bf i +
                (specs.map fun spec => outflow (fileOf fs o multib) spec 2 b i).sum)
              fieldDot := some (vec n fun i => e0 i + tabEntry (some fe) 0 i)
              last := ps.last
              timeField := fe.time }, ?_, ⟨rfl, rfl, rfl, h2.last⟩, rfl, rfl⟩
    simp only [energyBlock, ho.fieldDot, optFile_nil, e1, e4, e3, bind, Except.bind, h2.fdot, h2.src, h2.bflux, accumulate, pure, Except.pure,
      h0', h0.fdot, h0.src, h0.bflux, addArr_vec]

theorem energyFold_ok {fs : Str → Option (Series F)} {o : Files} (ho : o.Default) {multib : Str}
    {specs : List String} (hs : specs ≠ []) {n m : Nat} (hn : 2 ≤ n) (hm : 3 ≤ m) : ∀ nb : Nat,
    (∀ b < nb + 1, ∀ spec ∈ specs, SpeciesFiles (fileOf fs o multib) spec n m b) →
    (∀ b < nb + 1, ∃ fe, fileOf fs o multib b "field_energy_dot.gkyl" = some fe ∧ IsTable n 1 fe) →
    ∃ s, (List.range (nb + 1)).foldlM (energyBlock fs o multib (specs.map String.toList)) {} = .ok s ∧
      SumsIs n
        (fun i => ((List.range (nb + 1)).map fun b =>
          (specs.map fun spec => rate (fileOf fs o multib) spec 2 b i).sum).sum)
        (fun i => ((List.range (nb + 1)).map fun b => (specs.map fun spec =>
          tabEntry (fileOf fs o multib b (spec ++ "_source_integrated_moms.gkyl")) 2 i).sum).sum)
        (fun i => ((List.range (nb + 1)).map fun b =>
          (specs.map fun spec => outflow (fileOf fs o multib) spec 2 b i).sum).sum)
        (theTerm (fileOf fs o multib) (specs.getLast hs) n 2 nb) s ∧
      s.fieldDot = some (vec n fun i => ((List.range (nb + 1)).map fun b =>
        tabEntry (fileOf fs o multib b "field_energy_dot.gkyl") 0 i).sum) ∧
      ∀ fe, fileOf fs o multib nb "field_energy_dot.gkyl" = some fe → s.timeField = fe.time
  | 0, h1, h2 => by
    obtain ⟨fe, hfe, hft⟩ := h2 0 (by omega)
    obtain ⟨s, e, hS, hF, hT, _⟩ := energyBlock_first ho hs hn hm (h1 0 (by omega)) hfe hft
    refine ⟨s, ?_, by simpa using hS, by simpa using hF, ?_⟩
    · rw [show List.range (0 + 1) = [0] from rfl, List.foldlM_cons, e]; rfl
    · intro fe' h; rw [hfe] at h; cases h; exact hT
  | nb + 1, h1, h2 => by
    obtain ⟨s0, e0, hS0, hF0, _⟩ := energyFold_ok ho hs hn hm nb (fun b hb => h1 b (by omega))
      (fun b hb => h2 b (by omega))
    obtain ⟨fe, hfe, hft⟩ := h2 (nb + 1) (by omega)
    obtain ⟨_, _, _, _, _, hstep⟩ := energyBlock_first ho hs hn hm (h1 (nb + 1) (by omega)) hfe hft
    obtain ⟨s, e, hS, hF, hT⟩ := hstep s0 _ _ _ _ _ hS0 hF0
    refine ⟨s, ?_, ?_, ?_, ?_⟩
    · rw [List.range_succ, List.foldlM_append, e0]
      simp only [bind, Except.bind, List.foldlM_cons, List.foldlM_nil, e, pure, Except.pure]
    · simp only [List.range_succ (n := nb + 1), List.map_append, List.sum_append, List.map_cons, List.map_nil,
        List.sum_cons, List.sum_nil, add_zero]
      exact hS
    · simp only [List.range_succ (n := nb + 1), List.map_append, List.sum_append, List.map_cons, List.map_nil,
        List.sum_cons, List.sum_nil, add_zero]
      exact hF
    · intro fe' h; rw [hfe] at h; cases h; exact hT

/-! ## Relative errors -/

omit [_root_.Field F] in
theorem vec_tail (n : Nat) (f : Nat → F) : (vec n f).tail = vec (n - 1) fun i => f (i + 1) := by
  cases n with
  | zero => rfl
  | succ n =>
    simp only [vec, List.range_succ_eq_map, List.map_cons, List.map_map, List.tail_cons, Nat.add_sub_cancel]
    rfl

theorem total_ok {α : Type} {n : Nat} {g : α → Except Err (List F)} {v : α → Nat → F} :
    ∀ (l : List α), l ≠ [] → (∀ b ∈ l, g b = .ok (vec n (v b))) →
      l.foldlM (fun (acc : Option (List F)) b => do return some (← accumulate acc (← g b))) none =
        .ok (some (vec n fun i => (l.map fun b => v b i).sum)) := by
  have key : ∀ (l : List α) (w : Nat → F), (∀ b ∈ l, g b = .ok (vec n (v b))) →
      l.foldlM (fun (acc : Option (List F)) b => do return some (← accumulate acc (← g b))) (some (vec n w)) =
        .ok (some (vec n fun i => w i + (l.map fun b => v b i).sum)) := by
    intro l
    induction l with
    | nil => intro w _; simp; rfl
    | cons b l ih =>
      intro w h
      rw [List.foldlM_cons, h b (by simp)]
      simp only [bind, Except.bind, accumulate, addArr_vec, pure, Except.pure] at ih ⊢
      rw [ih _ (fun b hb => h b (by simp [hb]))]
      simp [add_assoc]
  intro l hne h
  cases l with
  | nil => exact absurd rfl hne
  | cons b l =>
    rw [List.foldlM_cons, h b (by simp)]
    have := key l (v b) (fun b hb => h b (by simp [hb]))
    simp only [bind, Except.bind, accumulate, pure, Except.pure] at this ⊢
    rw [this]
    simp

theorem momentOf_ok {fs : Str → Option (Series F)} {o : Files} (ho : o.Default) {multib : Str} {spec : String} {b : Nat} {s : Series F}
    (h : fileOf fs o multib b (spec ++ "_integrated_moms.gkyl") = some s) (k : Nat) :
    momentOf k fs o (blockPrefix o multib b ++ spec.toList) = column k s := by
  have e : fs (blockPrefix o multib b ++ spec.toList ++ "_integrated_moms.gkyl".toList) = some s := by
    rw [← h, ← fileOf_eq ho, String.toList_append, List.append_assoc]
  simp only [momentOf, ho.f, optFile_nil, bind, Except.bind, e]

theorem particleTotal_ok {fs : Str → Option (Series F)} {o : Files} (ho : o.Default) {multib : Str} {spec : String}
    {n m nb : Nat} (hn : 2 ≤ n) (hm : 2 ≤ m)
    (hf : ∀ b < nb + 1, ∃ s, fileOf fs o multib b (spec ++ "_integrated_moms.gkyl") = some s ∧ IsTable n m s) :
    particleTotal fs o multib spec.toList (nb + 1) = .ok (some (vec n fun i => ((List.range (nb + 1)).map fun b =>
      tabEntry (fileOf fs o multib b (spec ++ "_integrated_moms.gkyl")) 0 i).sum)) := by
  refine total_ok (n := n) (g := fun b => momentOf 0 fs o (blockPrefix o multib b ++ spec.toList))
    (v := fun b => tabEntry (fileOf fs o multib b (spec ++ "_integrated_moms.gkyl")) 0)
    (List.range (nb + 1)) (by simp) ?_
  intro b hb
  obtain ⟨s, h1, h2⟩ := hf b (List.mem_range.1 hb)
  rw [momentOf_ok ho h1, h1]
  exact column_ok hn hm (by omega) h2

theorem energyTotal_ok {fs : Str → Option (Series F)} {o : Files} (ho : o.Default) {multib : Str}
    {specs : List String} (hs : specs ≠ []) {n m : Nat} (hn : 2 ≤ n) (hm : 3 ≤ m) : ∀ nb : Nat,
    (∀ b < nb + 1, ∀ spec ∈ specs, ∃ s, fileOf fs o multib b (spec ++ "_integrated_moms.gkyl") = some s ∧
      IsTable n m s) →
    (∀ b < nb + 1, ∃ s, fileOf fs o multib b "field_energy.gkyl" = some s ∧ IsTable n 1 s) →
    energyTotal fs o multib (specs.map String.toList) (nb + 1) =
      .ok (some (vec n fun i => ((List.range (nb + 1)).map fun b =>
          tabEntry (fileOf fs o multib b "field_energy.gkyl") 0 i).sum),
        some (vec n fun i => ((List.range (nb + 1)).map fun b => (specs.map fun spec =>
          tabEntry (fileOf fs o multib b (spec ++ "_integrated_moms.gkyl")) 2 i).sum).sum)) := by
  intro nb hf hfe
  have he : ∀ b, fs (blockPrefix o multib b ++ "field_energy.gkyl".toList) =
      fileOf fs o multib b "field_energy.gkyl" := fun b => fileOf_eq ho _ _ _
  have hinner : ∀ b < nb + 1, (specs.map String.toList).foldlM (fun (p : Option (List F)) spec => do
        return some (← accumulate p (← energyMoment fs o multib b spec))) none =
      .ok (some (vec n fun i => (specs.map fun spec =>
        tabEntry (fileOf fs o multib b (spec ++ "_integrated_moms.gkyl")) 2 i).sum)) := by
    intro b hb
    have := total_ok (n := n) (g := fun spec : String => energyMoment fs o multib b spec.toList)
      (v := fun spec => tabEntry (fileOf fs o multib b (spec ++ "_integrated_moms.gkyl")) 2) specs hs (by
        intro spec hsp
        obtain ⟨s, h1, h2⟩ := hf b hb spec hsp
        rw [energyMoment, momentOf_ok ho h1, h1]
        exact column_ok hn (by omega) (by omega) h2)
    rw [← this, List.foldlM_map]
  have hstep : ∀ b < nb + 1, ∀ acc : Option (List F) × Option (List F), ∀ r1 r2 : List F,
      accumulate acc.1 (vec n (tabEntry (fileOf fs o multib b "field_energy.gkyl") 0)) = .ok r1 →
      accumulate acc.2 (vec n fun i => (specs.map fun spec =>
        tabEntry (fileOf fs o multib b (spec ++ "_integrated_moms.gkyl")) 2 i).sum) = .ok r2 →
      energyTotalStep fs o multib (specs.map String.toList) acc b = .ok (some r1, some r2) := by
    intro b hb acc r1 r2 h1 h2
    obtain ⟨fe, hfe1, hfe2⟩ := hfe b hb
    rw [hfe1] at h1
    have hi := hinner b hb
    simp only [bind, Except.bind, pure, Except.pure] at hi
    simp only [energyTotalStep, ho.field, optFile_nil, bind, Except.bind, he, hfe1, hi, onlyColumn_ok hfe2, h1, h2, pure, Except.pure]
  rw [energyTotal]
  clear hinner he hf hfe
  revert hstep
  induction nb with
  | zero =>
    intro hstep
    rw [show List.range (0 + 1) = [0] from rfl, List.foldlM_cons]
    rw [hstep 0 (by omega) (none, none) _ _ rfl rfl]
    simp
  | succ nb ih =>
    intro hstep
    have ih := ih (fun b hb => hstep b (by omega))
    rw [List.range_succ, List.foldlM_append, ih]
    simp only [bind, Except.bind, List.foldlM_cons, List.foldlM_nil]
    rw [hstep (nb + 1) (by omega) (some (vec n _), some (vec n _)) _ _ (addArr_vec n _ _) (addArr_vec n _ _)]
    simp only [pure, Except.pure, List.map_append, List.sum_append, List.map_cons, List.map_nil,
        List.sum_cons, List.sum_nil, add_zero]

end
end Gk
end Pgkyl
