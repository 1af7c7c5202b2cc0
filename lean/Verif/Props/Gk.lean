import Verif.Lemmas.GkBalance
import Mathlib.Algebra.Order.Field.Rat
import Mathlib.Tactic.NormNum
/-!
# C46: block lists and balances
-/

namespace Pgkyl
open Spec Gk Space

/-- C46: `--multib` with a comma-separated list, a slice, `-1` or `-10` names exactly the listed blocks, in that
order. -/
theorem C46_blocks {k : Nat} {text : Str} {bs : List Int} (h : Blocks k text bs) :
    getBlockIndices text k = .ok bs ∧ balanceBlocks text k = .ok bs := blocks_eq h

/-- C46: a single block number names that block, except in the balance commands, which reject it. -/
theorem C46_one_block (k : Nat) {i : Int} (hi : 0 ≤ i) :
    getBlockIndices (pyStr i) k = .ok [i] ∧ balanceBlocks (pyStr i) k = .error .fail := by
  have h1 : ',' ∉ pyStr i := pyStr_notMem (by decide) (by decide) i
  have h2 : ':' ∉ pyStr i := pyStr_notMem (by decide) (by decide) i
  have hm : '-' ∉ pyStr i := by
    obtain ⟨n, rfl⟩ := Int.eq_ofNat_of_zero_le hi
    rw [pyStr_ofNat]
    exact notMem_of_all_isDig (toDigits_all_isDig n) (by decide)
  have h3 : pyStr i ≠ "-10".toList := by intro h; rw [h] at hm; revert hm; decide
  have h4 : pyStr i ≠ "-1".toList := by intro h; rw [h] at hm; revert hm; decide
  constructor
  · simp only [getBlockIndices, if_neg h1, if_neg h2, if_neg h3, if_neg h4, pyInt_pyStr]
  · simp only [balanceBlocks, if_neg h1, if_neg h2, if_neg h3, if_neg h4]

section
variable {F : Type} [_root_.Field F]

/-- The sum of `f` over the listed blocks. -/
def overBlocks (bs : List Int) (f : Nat → F) : F := (bs.map fun b => f b.toNat).sum

theorem overBlocks_perm {bs : List Int} {nb : Nat} (h : bs.Perm ((List.range nb).map Int.ofNat)) (f : Nat → F) :
    overBlocks bs f = ((List.range nb).map f).sum := by
  rw [overBlocks, (h.map _).sum_eq, List.map_map]
  rfl

theorem perm_length {bs : List Int} {nb : Nat} (h : bs.Perm ((List.range nb).map Int.ofNat)) :
    bs.length = nb := by
  rw [h.length_eq]; simp

theorem overBlocks_source {bs : List Int} {nb : Nat} (h : bs.Perm ((List.range nb).map Int.ofNat))
    (file : Nat → String → Option (Series F)) (spec : String) (k i : Nat) :
    (if i = 0 then 0 else ((List.range nb).map fun b =>
      tabEntry (file b (spec ++ "_source_integrated_moms.gkyl")) k i).sum) =
    overBlocks bs fun b => source file spec k b i := by
  rw [overBlocks_perm h]
  by_cases hi : i = 0
  · simp [source, hi]
  · simp [source, hi]

/-- C46, particle balance, for lists that are a rearrangement of the blocks 0, 1, ..., nb: the rate of change, the
sources (not counted at the first time), the fluxes through the boundaries and the error are, at every time, the sums
of the moment 0 over exactly the listed blocks and all boundaries with a file. -/
theorem C46_particle_balance_partial (fs : Str → Option (Series F)) {o : Files} (ho : o.Default) (spec : String)
    {k : Nat} {text : Str} {bs : List Int} (hb : Blocks k text bs) {nb : Nat}
    (hbs : bs.Perm ((List.range (nb + 1)).map Int.ofNat)) {n m : Nat} (hn : 2 ≤ n) (hm : 2 ≤ m)
    (hf : ∀ b < nb + 1, SpeciesFiles (fileOf fs o text) spec n m b) :
    ∃ out, particleBalance fs o text spec.toList k = .ok out ∧ (out.map (·.tag)).Nodup ∧
      (∃ d ∈ out, d.tag = "fdot" ∧ d.values = (List.range n).map fun i =>
        overBlocks bs fun b => rate (fileOf fs o text) spec 0 b i) ∧
      ((fileOf fs o text nb (spec ++ "_source_integrated_moms.gkyl")).isSome → ∃ d ∈ out, d.tag = "src") ∧
      (∀ d ∈ out, d.tag = "src" → d.values = (List.range n).map fun i =>
        overBlocks bs fun b => source (fileOf fs o text) spec 0 b i) ∧
      (∀ d ∈ out, d.tag = "bflux" → d.values = (List.range n).map fun i =>
        -overBlocks bs fun b => outflow (fileOf fs o text) spec 0 b i) ∧
      (∃ d ∈ out, d.tag = "err" ∧
        (∀ s, fileOf fs o text nb (spec ++ "_fdot_integrated_moms.gkyl") = some s → d.times = [s.time]) ∧
        d.values = (List.range n).map fun i =>
          (overBlocks bs fun b => source (fileOf fs o text) spec 0 b i)
            - (overBlocks bs fun b => outflow (fileOf fs o text) spec 0 b i)
            - overBlocks bs fun b => rate (fileOf fs o text) spec 0 b i) := by
  obtain ⟨s, e, hS, hF⟩ := particleSums_ok ho hn hm hf
  have hout := balanceOut_ok hn hS hF
  simp only [overBlocks_source hbs] at hout
  simp only [← overBlocks_perm hbs] at hout
  have hrun : particleBalance fs o text spec.toList k = balanceOut s := by
    simp only [particleBalance, blocksFor_eq ho.fdot hb, bind, Except.bind, perm_length hbs, e]
  rw [hrun, hout]
  simp only [theTerm]
  refine ⟨_, rfl, ?_⟩
  cases hsrc : fileOf fs o text nb (spec ++ "_source_integrated_moms.gkyl") with
  | none =>
    by_cases hbf : List.map (fun x => x.time) (List.filterMap (fun e =>
        fileOf fs o text nb (spec ++ "_bflux_" ++ e ++ "_integrated_HamiltonianMoments.gkyl")) edges) = []
    · simp +contextual [hbf, vec]
    · simp +contextual [hbf, vec]
  | some ss =>
    by_cases hbf : List.map (fun x => x.time) (List.filterMap (fun e =>
        fileOf fs o text nb (spec ++ "_bflux_" ++ e ++ "_integrated_HamiltonianMoments.gkyl")) edges) = []
    · simp +contextual [hbf, vec]
    · simp +contextual [hbf, vec]

/-- C46, relative error of the particle balance, for the same lists: at every time after the first, the error of the
balance times the time step over the number of particles in the listed blocks. -/
theorem C46_particle_rel_error_partial (fs : Str → Option (Series F)) {o : Files} (ho : o.Default) (spec : String)
    {k : Nat} {text : Str} {bs : List Int} (hb : Blocks k text bs) {nb : Nat}
    (hbs : bs.Perm ((List.range (nb + 1)).map Int.ofNat)) {n m : Nat} (hn : 2 ≤ n) (hm : 2 ≤ m)
    (hf : ∀ b < nb + 1, SpeciesFiles (fileOf fs o text) spec n m b)
    (ht : ∀ b < nb + 1, ∃ s, fileOf fs o text b (spec ++ "_integrated_moms.gkyl") = some s ∧ IsTable n m s)
    {dt : Series F} (hdt : fs (timeStepFile o.path o.name o.dt) = some dt)
    (hdt' : IsTable (n - 1) 1 dt) :
    particleRelError fs o text spec.toList k = .ok [⟨"rel_err", [dt.time], (List.range (n - 1)).map fun i =>
      ((overBlocks bs fun b => source (fileOf fs o text) spec 0 b (i + 1))
            - (overBlocks bs fun b => outflow (fileOf fs o text) spec 0 b (i + 1))
            - overBlocks bs fun b => rate (fileOf fs o text) spec 0 b (i + 1))
        * tabEntry (some dt) 0 i
        / overBlocks bs fun b => tabEntry (fileOf fs o text b (spec ++ "_integrated_moms.gkyl")) 0 (i + 1)⟩] := by
  obtain ⟨s, e, hS, hF⟩ := particleSums_ok ho hn hm hf
  have ht := particleTotal_ok ho hn hm ht
  have hdt : fs (dtFileOf o) = some dt := by rw [dtFile_eq, hdt]
  simp only [particleRelError, blocksFor_eq ho.fdot hb, bind, Except.bind, perm_length hbs, e, hdt, ht, hS.fdot, hS.src,
    hS.bflux, vec_tail, subArr_vec, onlyColumn_ok hdt', mulArr_vec, divArr_vec, pure, Except.pure]
  simp only [overBlocks_perm hbs, source, Nat.add_one_ne_zero, if_false, vec]

/-- C46, energy balance, for the same lists: the moment 2 is summed over exactly the listed blocks, all species and
all boundaries with a file; the rate of change of the field energy is taken out of that of the particles. -/
theorem C46_energy_balance_partial (fs : Str → Option (Series F)) {o : Files} (ho : o.Default)
    {specs : List String} (hne : specs ≠ []) (hc : ∀ s ∈ specs, ',' ∉ s.toList)
    {k : Nat} {text : Str} {bs : List Int} (hb : Blocks k text bs) {nb : Nat}
    (hbs : bs.Perm ((List.range (nb + 1)).map Int.ofNat)) {n m : Nat} (hn : 2 ≤ n) (hm : 3 ≤ m)
    (hf : ∀ b < nb + 1, ∀ spec ∈ specs, SpeciesFiles (fileOf fs o text) spec n m b)
    (hfe : ∀ b < nb + 1, ∃ fe, fileOf fs o text b "field_energy_dot.gkyl" = some fe ∧ IsTable n 1 fe) :
    ∃ out, energyBalance fs o text (joinWith ',' (specs.map String.toList)) k = .ok out ∧
      (out.map (·.tag)).Nodup ∧
      (∃ d ∈ out, d.tag = "fdot" ∧ d.values = (List.range n).map fun i =>
        overBlocks bs fun b => (specs.map fun spec => rate (fileOf fs o text) spec 2 b i).sum) ∧
      (∃ d ∈ out, d.tag = "field_dot" ∧ d.values = (List.range n).map fun i =>
        overBlocks bs fun b => tabEntry (fileOf fs o text b "field_energy_dot.gkyl") 0 i) ∧
      (∀ d ∈ out, d.tag = "src" → d.values = (List.range n).map fun i =>
        overBlocks bs fun b => (specs.map fun spec => source (fileOf fs o text) spec 2 b i).sum) ∧
      (∀ d ∈ out, d.tag = "bflux" → d.values = (List.range n).map fun i =>
        -overBlocks bs fun b => (specs.map fun spec => outflow (fileOf fs o text) spec 2 b i).sum) ∧
      (∃ d ∈ out, d.tag = "err" ∧ d.values = (List.range n).map fun i =>
          (overBlocks bs fun b => (specs.map fun spec => source (fileOf fs o text) spec 2 b i).sum)
            - (overBlocks bs fun b => (specs.map fun spec => outflow (fileOf fs o text) spec 2 b i).sum)
            - ((overBlocks bs fun b => (specs.map fun spec => rate (fileOf fs o text) spec 2 b i).sum)
              - overBlocks bs fun b => tabEntry (fileOf fs o text b "field_energy_dot.gkyl") 0 i)) := by
  obtain ⟨s, e, hS, hF, _⟩ := energyFold_ok ho hne hn hm nb hf hfe
  have hsp : splitOn ',' (joinWith ',' (specs.map String.toList)) = specs.map String.toList := by
    apply splitOn_joinWith
    · simpa using hne
    · intro p hp
      obtain ⟨i, hi, rfl⟩ := List.mem_map.1 hp
      exact hc i hi
  have hsrc : ∀ i, (if i = 0 then 0 else ((List.range (nb + 1)).map fun b => (specs.map fun spec =>
        tabEntry (fileOf fs o text b (spec ++ "_source_integrated_moms.gkyl")) 2 i).sum).sum) =
      overBlocks bs fun b => (specs.map fun spec => source (fileOf fs o text) spec 2 b i).sum := by
    intro i
    rw [overBlocks_perm hbs]
    by_cases hi : i = 0
    · simp [source, hi]
    · simp [source, hi]
  have hout := balanceOut_field hn hS hF
  simp only [hsrc] at hout
  simp only [← overBlocks_perm hbs] at hout
  have hrun : energyBalance fs o text (joinWith ',' (specs.map String.toList)) k = balanceOut s := by
    simp only [energyBalance, blocksFor_eq ho.fdot hb, bind, Except.bind, perm_length hbs, hsp, e]
  rw [hrun, hout]
  simp only [theTerm]
  refine ⟨_, rfl, ?_⟩
  cases hs' : fileOf fs o text nb (specs.getLast hne ++ "_source_integrated_moms.gkyl") with
  | none =>
    by_cases hbf : List.map (fun x => x.time) (List.filterMap (fun e => fileOf fs o text nb
        (specs.getLast hne ++ "_bflux_" ++ e ++ "_integrated_HamiltonianMoments.gkyl")) edges) = []
    · simp +contextual [hbf, vec]
    · simp +contextual [hbf, vec]
  | some ss =>
    by_cases hbf : List.map (fun x => x.time) (List.filterMap (fun e => fileOf fs o text nb
        (specs.getLast hne ++ "_bflux_" ++ e ++ "_integrated_HamiltonianMoments.gkyl")) edges) = []
    · simp +contextual [hbf, vec]
    · simp +contextual [hbf, vec]

/-- C46, relative error of the energy balance, for the same lists. -/
theorem C46_energy_rel_error_partial (fs : Str → Option (Series F)) {o : Files} (ho : o.Default)
    {specs : List String} (hne : specs ≠ []) (hc : ∀ s ∈ specs, ',' ∉ s.toList)
    {k : Nat} {text : Str} {bs : List Int} (hb : Blocks k text bs) {nb : Nat}
    (hbs : bs.Perm ((List.range (nb + 1)).map Int.ofNat)) {n m : Nat} (hn : 2 ≤ n) (hm : 3 ≤ m)
    (hf : ∀ b < nb + 1, ∀ spec ∈ specs, SpeciesFiles (fileOf fs o text) spec n m b)
    (hfe : ∀ b < nb + 1, ∃ fe, fileOf fs o text b "field_energy_dot.gkyl" = some fe ∧ IsTable n 1 fe)
    (ht : ∀ b < nb + 1, ∀ spec ∈ specs, ∃ s, fileOf fs o text b (spec ++ "_integrated_moms.gkyl") = some s ∧
      IsTable n m s)
    (hte : ∀ b < nb + 1, ∃ fe, fileOf fs o text b "field_energy.gkyl" = some fe ∧ IsTable n 1 fe)
    {dt : Series F} (hdt : fs (timeStepFile o.path o.name o.dt) = some dt)
    (hdt' : IsTable (n - 1) 1 dt) :
    energyRelError fs o text (joinWith ',' (specs.map String.toList)) k =
      .ok [⟨"rel_err", [dt.time], (List.range (n - 1)).map fun i =>
        ((overBlocks bs fun b => (specs.map fun spec => source (fileOf fs o text) spec 2 b (i + 1)).sum)
              - (overBlocks bs fun b => (specs.map fun spec => outflow (fileOf fs o text) spec 2 b (i + 1)).sum)
              - ((overBlocks bs fun b => (specs.map fun spec => rate (fileOf fs o text) spec 2 b (i + 1)).sum)
                - overBlocks bs fun b => tabEntry (fileOf fs o text b "field_energy_dot.gkyl") 0 (i + 1)))
          * tabEntry (some dt) 0 i
          / ((overBlocks bs fun b => (specs.map fun spec =>
                tabEntry (fileOf fs o text b (spec ++ "_integrated_moms.gkyl")) 2 (i + 1)).sum)
              - overBlocks bs fun b => tabEntry (fileOf fs o text b "field_energy.gkyl") 0 (i + 1))⟩] := by
  obtain ⟨s, e, hS, hF, _⟩ := energyFold_ok ho hne hn hm nb hf hfe
  have hsp : splitOn ',' (joinWith ',' (specs.map String.toList)) = specs.map String.toList := by
    apply splitOn_joinWith
    · simpa using hne
    · intro p hp
      obtain ⟨i, hi, rfl⟩ := List.mem_map.1 hp
      exact hc i hi
  have ht := energyTotal_ok ho hne hn hm nb ht hte
  have hdt : fs (dtFileOf o) = some dt := by rw [dtFile_eq, hdt]
  simp only [energyRelError, blocksFor_eq ho.fdot hb, bind, Except.bind, perm_length hbs, hsp, e, hdt, ht, hS.fdot, hS.src,
    hS.bflux, hF, vec_tail, subArr_vec, onlyColumn_ok hdt', mulArr_vec, divArr_vec, pure, Except.pure]
  simp only [overBlocks_perm hbs, source, Nat.add_one_ne_zero, if_false, vec]

/-- C46: two lists of the same length give the same balance, whatever blocks they name: the commands count the listed
blocks and then use the blocks 0, 1, 2, ... -/
theorem C46_balance_counts_blocks (fs : Str → Option (Series F)) (o : Files) (spec : Str) {k k' : Nat}
    {text text' : Str} {bs bs' : List Int} (hb : Blocks k text bs) (hb' : Blocks k' text' bs')
    (hl : bs.length = bs'.length) (hfd : o.fdot = []) (h1 : text ≠ "-10".toList) (h2 : text' ≠ "-10".toList) :
    particleBalance fs o text spec k = particleBalance fs o text' spec k' ∧
    energyBalance fs o text spec k = energyBalance fs o text' spec k' := by
  have hp : ∀ b, blockPrefix o text b = blockPrefix o text' b := by
    intro b; simp only [blockPrefix, prefixStar, if_neg h1, if_neg h2]
  have h3 : particleTerm fs o text spec = particleTerm fs o text' spec := by
    funext b; simp only [particleTerm, hp]
  have h4 : energyBlock fs o text = energyBlock fs o text' := by
    funext sp s b
    have : energyTerm fs o text = energyTerm fs o text' := by
      funext b s; simp only [energyTerm, hp]
    simp only [energyBlock, hp, this]
  constructor
  · simp only [particleBalance, blocksFor_eq hfd hb, blocksFor_eq hfd hb', bind, Except.bind, particleSums, h3, hl]
  · simp only [energyBalance, blocksFor_eq hfd hb, blocksFor_eq hfd hb', bind, Except.bind, h4, hl]

theorem foldlM_error {α β : Type} {f : β → α → Except Err β} {a : α} {s : β} {e : Err} (l : List α) (h : f s a = .error e) :
    (a :: l).foldlM f s = .error e := by
  rw [List.foldlM_cons, h]; rfl

omit [_root_.Field F] in
theorem mapM_bflux_error (pre : Str) : ∀ {l : List (Str × List Str)}, (∃ x ∈ l, x.2 ≠ []) →
    l.mapM (bfluxFile pre) = .error .attributeError
  | [], h => by simp at h
  | (d, []) :: l, h => by
    have := mapM_bflux_error pre (l := l) (by simpa using h)
    simp only [List.mapM_cons, bfluxFile, optFile, bind, Except.bind, this]
  | (d, _ :: _) :: l, _ => by simp only [List.mapM_cons, bfluxFile, optFile, bind, Except.bind]

/-- With an option for a file of the species, its contribution cannot be read. -/
theorem speciesTerm_named (fs : Str → Option (Series F)) {o : Files} (hl : o.bflux.length = 6) (h : o.Named) (k : Nat) (pre : Str) :
    ∃ e, speciesTerm k fs o pre = .error e := by
  cases h1 : o.fdot with
  | cons x l => exact ⟨.attributeError, by simp only [speciesTerm, h1, optFile, bind, Except.bind]⟩
  | nil =>
    cases h2 : fs (pre ++ "_fdot_integrated_moms.gkyl".toList) with
    | none => exact ⟨.osError, by simp only [speciesTerm, h1, optFile, bind, Except.bind, h2]⟩
    | some fd =>
      cases h3 : o.source with
      | cons x l => exact ⟨.attributeError, by simp only [speciesTerm, h1, h3, optFile, bind, Except.bind, h2]⟩
      | nil =>
        have hb : ∃ x ∈ o.bflux, x ≠ [] := by
          rcases h with h | h | h
          · exact absurd h1 h
          · exact absurd h3 h
          · exact h
        have : (boundaries.zip o.bflux).mapM (bfluxFile pre) = .error .attributeError := by
          apply mapM_bflux_error
          obtain ⟨x, hx, hne⟩ := hb
          obtain ⟨i, hi, rfl⟩ := List.getElem_of_mem hx
          have hb : i < boundaries.length := by rw [hl] at hi; exact hi
          exact ⟨(boundaries[i], o.bflux[i]), List.mem_iff_getElem.2 ⟨i, by simp [hi, hb], by simp⟩, hne⟩
        exact ⟨.attributeError, by simp only [speciesTerm, h1, h3, optFile, bind, Except.bind, h2, this]⟩

/-- C46 fails for files named by the user: with any of the options `--fdot_file`, `--source_file` and `--bflux_..._file` the
balances end in an error, whatever the files and blocks. -/
theorem C46_named_files_fails (fs : Str → Option (Series F)) {o : Files} (hl : o.bflux.length = 6) (h : o.Named) (text spec : Str)
    (k : Nat) : (∃ e, particleBalance fs o text spec k = .error e) ∧ (∃ e, particleRelError fs o text spec k = .error e) ∧
      (∃ e, energyBalance fs o text spec k = .error e) ∧ ∃ e, energyRelError fs o text spec k = .error e := by
  have hP : ∀ n, (∃ e, particleSums fs o text spec n = .error e) ∨ particleSums fs o text spec n = .ok {} := by
    intro n
    cases n with
    | zero => exact .inr rfl
    | succ n =>
      obtain ⟨e, he⟩ := speciesTerm_named fs hl h 0 (blockPrefix o text 0 ++ spec)
      refine .inl ⟨e, ?_⟩
      rw [particleSums, List.range_succ_eq_map]
      exact foldlM_error _ (by simp only [particleTerm, he, bind, Except.bind])
  have hE : ∀ n, (∃ e, (List.range n).foldlM (energyBlock fs o text (splitOn ',' spec)) {} = .error e) ∨
      (List.range n).foldlM (energyBlock fs o text (splitOn ',' spec)) ({} : Sums F) = .ok {} := by
    intro n
    cases n with
    | zero => exact .inr rfl
    | succ n =>
      left
      rw [List.range_succ_eq_map]
      suffices hs : ∃ e, energyBlock fs o text (splitOn ',' spec) ({} : Sums F) 0 = .error e by
        obtain ⟨e, he⟩ := hs
        exact ⟨e, foldlM_error _ he⟩
      cases hf : o.fieldDot with
      | cons x l => exact ⟨.attributeError, by simp only [energyBlock, hf, optFile, bind, Except.bind]⟩
      | nil =>
        cases hr : fs (blockPrefix o text 0 ++ "field_energy_dot.gkyl".toList) with
        | none => exact ⟨.osError, by simp only [energyBlock, hf, optFile, bind, Except.bind, hr]⟩
        | some fd =>
          cases hc : onlyColumn fd with
          | error e => exact ⟨e, by simp only [energyBlock, hf, optFile, bind, Except.bind, hr, hc]⟩
          | ok fdv =>
            cases hsp : splitOn ',' spec with
            | nil => exact absurd hsp (splitOn_ne_nil _ _)
            | cons s0 ss =>
              obtain ⟨e, he⟩ := speciesTerm_named fs hl h 2 (blockPrefix o text 0 ++ s0)
              have := foldlM_error (f := fun (p : Sums F) spec => do p.add (← energyTerm fs o text 0 spec)) (s := {}) (a := s0) (e := e) ss
                (by simp only [energyTerm, he, bind, Except.bind])
              simp only [bind, Except.bind] at this
              exact ⟨e, by simp only [energyBlock, hf, optFile, bind, Except.bind, hr, hc, this]⟩
  have key : ∀ {α β : Type} (x : Except Err α) (g : α → Except Err β), (∀ a, ∃ e, g a = .error e) → ∃ e, (x >>= g) = .error e := by
    intro α β x g hg
    cases x with
    | error e => exact ⟨e, rfl⟩
    | ok a => exact hg a
  refine ⟨key _ _ fun bs => ?_, key _ _ fun bs => ?_, key _ _ fun bs => ?_, key _ _ fun bs => ?_⟩
  · rcases hP bs.length with ⟨e, he⟩ | he
    · exact ⟨e, by rw [he]; rfl⟩
    · exact ⟨.typeError, by rw [he]; rfl⟩
  · rcases hP bs.length with ⟨e, he⟩ | he
    · exact ⟨e, by rw [he]; rfl⟩
    · rw [he]
      cases hd : fs (dtFileOf o) with
      | none => exact ⟨.attributeError, by simp only [bind, Except.bind, hd]⟩
      | some dt =>
        cases ht : particleTotal fs o text spec bs.length with
        | error e => exact ⟨e, by simp only [bind, Except.bind, hd, ht]⟩
        | ok total => exact ⟨.typeError, by simp only [bind, Except.bind, hd, ht]⟩
  · rcases hE bs.length with ⟨e, he⟩ | he
    · exact ⟨e, by rw [he]; rfl⟩
    · exact ⟨.typeError, by rw [he]; rfl⟩
  · rcases hE bs.length with ⟨e, he⟩ | he
    · exact ⟨e, by simp only [he, bind, Except.bind]⟩
    · cases hd : fs (dtFileOf o) with
      | none => exact ⟨.attributeError, by simp only [bind, Except.bind, he, hd]⟩
      | some dt =>
        cases ht : energyTotal fs o text (splitOn ',' spec) bs.length with
        | error e => exact ⟨e, by simp only [bind, Except.bind, he, hd, ht]⟩
        | ok total => exact ⟨.typeError, by simp only [bind, Except.bind, he, hd, ht]⟩

end

namespace GkEx

/-- Hypotheses of `C46_named_files_fails`: the source file is named. -/
example : (⟨".".toList, "sim".toList, [], ["s.gkyl".toList], List.replicate 6 [], [], [], [], []⟩ : Files).Named ∧
    (List.replicate 6 ([] : List Str)).length = 6 := ⟨.inr (.inl (by decide)), rfl⟩

/-- A run of three blocks with one species: block `b` changes at the rate `b`, block 0 has a source of 5, block 1 a
flux of 7 through its lower end in x. -/
def rate (b : Nat) : Series ℚ := ⟨[0, 1], [[b, 0], [b, 0]]⟩

def fs (f : Str) : Option (Series ℚ) :=
  if f = "./sim_b0-ion_fdot_integrated_moms.gkyl".toList then some (rate 0)
  else if f = "./sim_b1-ion_fdot_integrated_moms.gkyl".toList then some (rate 1)
  else if f = "./sim_b2-ion_fdot_integrated_moms.gkyl".toList then some (rate 2)
  else if f = "./sim_b0-ion_source_integrated_moms.gkyl".toList then some ⟨[0, 1], [[5, 0], [5, 0]]⟩
  else if f = "./sim_b1-ion_bflux_xlower_integrated_HamiltonianMoments.gkyl".toList then
    some ⟨[0, 1], [[7, 0], [7, 0]]⟩
  else none

def o : Files := { path := ".".toList, name := "sim".toList }

theorem o_default : o.Default := by
  constructor <;> decide

theorem table {f : Str} {s : Series ℚ} (h : fs f = some s) : IsTable 2 2 s := by
  unfold fs at h
  split_ifs at h <;> cases h <;> simp [IsTable, rate]

theorem files {text : Str} (ht : text ≠ "-10".toList) {b : Nat} (hb : b < 3) :
    SpeciesFiles (fileOf fs o text) "ion" 2 2 b := by
  refine ⟨?_, fun s hs => table hs, fun e _ s hs => table hs⟩
  have h : b = 0 ∨ b = 1 ∨ b = 2 := by omega
  rw [show fileOf fs o text = fileOf fs o "-1".toList by
    funext b r; simp only [fileOf, decide_eq_true ht, decide_eq_true (show "-1".toList ≠ "-10".toList by decide)]]
  rcases h with rfl | rfl | rfl
  · exact ⟨rate 0, by decide +kernel, by simp [IsTable, rate]⟩
  · exact ⟨rate 1, by decide +kernel, by simp [IsTable, rate]⟩
  · exact ⟨rate 2, by decide +kernel, by simp [IsTable, rate]⟩

/-- All three blocks: the errors are 0 − 7 − 3 and 5 − 7 − 3. -/
example : (particleBalance fs o "0,1,2".toList "ion".toList 3).map (fun l => l.map fun d => (d.tag, d.values)) =
    .ok [("fdot", [3, 3]), ("err", [-10, -5])] := by decide +kernel

/-- The hypotheses of `C46_particle_balance_partial` hold for the list `1,0`. -/
example : ∃ out, particleBalance fs o "1,0".toList "ion".toList 3 = .ok out ∧
    ∃ d ∈ out, d.tag = "err" ∧ d.values = (List.range 2).map fun i =>
      (overBlocks [1, 0] fun b => source (fileOf fs o "1,0".toList) "ion" 0 b i)
        - (overBlocks [1, 0] fun b => outflow (fileOf fs o "1,0".toList) "ion" 0 b i)
        - overBlocks [1, 0] fun b => Spec.rate (fileOf fs o "1,0".toList) "ion" 0 b i := by
  obtain ⟨out, h, _, _, _, _, _, d, hd, ht, _, hv⟩ := C46_particle_balance_partial fs o_default "ion"
    (Blocks.list (k := 3) [1, 0] (by decide)) (nb := 1) (by decide) (n := 2) (m := 2) (by decide) (by decide)
    (fun b hb => files (by decide) (by omega))
  exact ⟨out, h, d, hd, ht, hv⟩

/-- One block, electrons and ions: the energy of the electrons grows by 4, that of the ions by 1, that of the field by
2; there is a source of ions. -/
def fsE (f : Str) : Option (Series ℚ) :=
  if f = "./sim-elc_fdot_integrated_moms.gkyl".toList then some ⟨[0, 1], [[0, 0, 4], [0, 0, 4]]⟩
  else if f = "./sim-ion_fdot_integrated_moms.gkyl".toList then some ⟨[0, 1], [[0, 0, 1], [0, 0, 1]]⟩
  else if f = "./sim-ion_source_integrated_moms.gkyl".toList then some ⟨[0, 1], [[0, 0, 6], [0, 0, 6]]⟩
  else none

def fsF (f : Str) : Option (Series ℚ) :=
  if f = "./sim-field_energy_dot.gkyl".toList then some ⟨[0, 1], [[2], [2]]⟩ else fsE f

example : (energyBalance fsF o "-10".toList "elc,ion".toList 0).map (fun l => l.map fun d => (d.tag, d.values)) =
    .ok [("fdot", [5, 5]), ("src", [0, 6]), ("field_dot", [2, 2]), ("err", [-3, 3])] := by decide +kernel

theorem tableE {f : Str} {s : Series ℚ} (h : fsE f = some s) : IsTable 2 3 s := by
  unfold fsE at h
  split_ifs at h <;> cases h <;> simp [IsTable]

/-- The hypotheses of `C46_energy_balance_partial` hold here. -/
example : ∃ out, energyBalance fsF o "-10".toList (joinWith ',' (["elc", "ion"].map String.toList)) 0 = .ok out := by
  have hne : ∀ (spec r : String) (b : Nat), spec = "elc" ∨ spec = "ion" → ∀ s,
      fileOf fsF o "-10".toList b (spec ++ r) = some s → IsTable 2 3 s := by
    intro spec r b h s hs
    have : blockFile o.path o.name (decide ("-10".toList ≠ "-10".toList)) b (spec ++ r) ≠
        "./sim-field_energy_dot.gkyl".toList := by
      rcases h with rfl | rfl <;> simp [blockFile, o]
    unfold fileOf fsF at hs
    rw [if_neg this] at hs
    exact tableE hs
  obtain ⟨out, h, _⟩ := C46_energy_balance_partial fsF o_default (specs := ["elc", "ion"]) (by decide) (by decide)
    (Blocks.single (k := 0)) (nb := 0) (by decide) (n := 2) (m := 3) (by decide) (by decide)
    (by
      intro b hb spec hs
      have hs : spec = "elc" ∨ spec = "ion" := by simpa using hs
      obtain rfl : b = 0 := by omega
      refine ⟨?_, fun s h => hne spec _ _ hs s h, fun e _ s h => hne spec ("_bflux_" ++ e ++
        "_integrated_HamiltonianMoments.gkyl") _ hs s (by rw [← String.append_assoc, ← String.append_assoc]; exact h)⟩
      rcases hs with rfl | rfl
      · exact ⟨⟨[0, 1], [[0, 0, 4], [0, 0, 4]]⟩, by decide +kernel, by simp [IsTable]⟩
      · exact ⟨⟨[0, 1], [[0, 0, 1], [0, 0, 1]]⟩, by decide +kernel, by simp [IsTable]⟩)
    (by
      intro b hb
      obtain rfl : b = 0 := by omega
      exact ⟨⟨[0, 1], [[2], [2]]⟩, by decide +kernel, by simp [IsTable]⟩)
  exact ⟨out, h⟩

end GkEx

/-- C46 fails for the balance commands: with the blocks 1 and 2 listed, the rate of change is that of the blocks 0 and
1. -/
theorem C46_listed_blocks_fails :
    ¬ ∀ (fs : Str → Option (Series ℚ)) (o : Files), o.Default → ∀ (spec : String) (k : Nat) (text : Str)
      (bs : List Int), Blocks k text bs →
      (∀ b ∈ bs, SpeciesFiles (fileOf fs o text) spec 2 2 b.toNat) →
      ∀ out, particleBalance fs o text spec.toList k = .ok out → ∀ d ∈ out, d.tag = "fdot" →
        d.values = (List.range 2).map fun i => overBlocks bs fun b => rate (fileOf fs o text) spec 0 b i := by
  intro h
  have h1 := h GkEx.fs GkEx.o GkEx.o_default "ion" 3 "1,2".toList [1, 2] (Blocks.list [1, 2] (by decide)) (by
    intro b hb
    have hb : b = 1 ∨ b = 2 := by simpa using hb
    rcases hb with rfl | rfl
    · exact GkEx.files (by decide) (by decide)
    · exact GkEx.files (by decide) (by decide))
  have h2 : (particleBalance GkEx.fs GkEx.o "1,2".toList "ion".toList 3).toOption.map
      (fun l => l.map fun d => (d.tag, d.values)) =
    some [("fdot", [1, 1]), ("bflux", [-7, -7]), ("err", [-8, -3])] := by decide +kernel
  cases h3 : particleBalance GkEx.fs GkEx.o "1,2".toList "ion".toList 3 with
  | error e => rw [h3] at h2; cases h2
  | ok out =>
    have h1 := h1 out h3
    rw [h3] at h2
    cases out with
    | nil => cases h2
    | cons d out =>
      simp only [Except.toOption, Option.map_some, List.map_cons, Option.some.injEq, List.cons.injEq,
        Prod.mk.injEq] at h2
      have h4 := h1 d (by simp) h2.1.1
      rw [h2.1.2] at h4
      revert h4
      decide +kernel

end Pgkyl
