import Verif.Model.LoadCmd
import Verif.Props.Cli
import Verif.Props.LoadDistf
import Verif.Spec.PairCommands
/-! # Properties of the command `load` on the store, and of whole command lines (C125) -/

namespace Pgkyl
namespace Cli
open Spec Dg Cmd Space Gk

/-! ## The store -/

section
variable {F : Type} [Add F] [Sub F] [Mul F] [Div F] [Neg F] [Zero F] [One F] [IntCast F] [NatCast F] [Min F] [Max F]

theorem loadAll_ok {make : Str → Str → Except Err (GData F)} {fv : Bool} : ∀ {qs : List (Str × Str)} {rs : List (GData F)},
    List.Forall₂ (fun q r => ∃ d, make q.1 q.2 = .ok d ∧ fvStep fv d = .ok r) qs rs → ∀ s : Space F,
    qs.foldlM (loadOne make fv) s = .ok (rs.foldl addNew s)
  | [], [], .nil, s => rfl
  | q :: qs, r :: rs, .cons ⟨d, h1, h2⟩ hs, s => by
    have : loadOne make fv s q = .ok (s.addNew r) := by
      simp only [loadOne, h1, h2, bind, Except.bind, pure, Except.pure, nameErrorFails]
    simp only [List.foldlM_cons, this, bind, Except.bind, List.foldl_cons]
    exact loadAll_ok hs _

/-- **C125.**  `load` takes the next string of the command line and adds one dataset per variable name and file, listed under
the tag: for the first variable the files in order, then for the second, and so on.  Then every active dataset gets its label
(`set_unique_labels`, C48).  Nothing else changes: no other dataset is added or taken away, and of the old ones at most the
label changes. -/
theorem C125_load {s : Space F} (hs : Reachable s) {strs : List Str} {n : Nat} {str : Str} (hstr : strs[n]? = some str)
    (glob : Str → List Str) (make : Used → Str → Str → Except Err (GData F)) (loc glo : Given) (fv : Bool)
    {vars files : List Str} (hvars : (resolveOpts loc glo).varNames = vars) (hfiles : filesOf glob str = files)
    (hv : vars ≠ []) (hf : files ≠ []) {T : Tag} {made : Str → Str → GData F}
    (hmade : ∀ v ∈ vars, ∀ f ∈ files, (∃ d, make (resolveOpts loc glo) v f = .ok d ∧ fvStep fv d = .ok (made v f)) ∧
      (made v f).tag = T ∧ (made v f).status = true) :
    ∃ s1 s' : Space F, load glob make glo strs loc fv ⟨s, n⟩ = .ok ⟨s', n + 1⟩ ∧
      AddsEach s T (vars.flatMap fun v => files.map fun f => (v, f)) (fun q r => r = made q.1 q.2) s1 ∧
      setUniqueLabels s1 = .ok s' ∧ s'.dict = s1.dict ∧ Reachable s' ∧
      ∀ j : Nat, ∃ l : Str, s'.heap[j]? = (s1.heap[j]?).map fun d : GData F => { d with label := l } := by
  obtain ⟨qs, hqs⟩ : ∃ qs, qs = vars.flatMap fun v => files.map fun f => (v, f) := ⟨_, rfl⟩
  have hmem : ∀ q ∈ qs, q.1 ∈ vars ∧ q.2 ∈ files := by
    intro q hq
    rw [hqs] at hq
    obtain ⟨v, hv', hq⟩ := List.mem_flatMap.1 hq
    obtain ⟨f, hf', rfl⟩ := List.mem_map.1 hq
    exact ⟨hv', hf'⟩
  obtain ⟨rs, hrs⟩ : ∃ rs, rs = qs.map fun q => made q.1 q.2 := ⟨_, rfl⟩
  have h2 : List.Forall₂ (fun q r => ∃ d, make (resolveOpts loc glo) q.1 q.2 = .ok d ∧ fvStep fv d = .ok r) qs rs := by
    rw [hrs, List.forall₂_map_right_iff]
    exact List.forall₂_same.2 fun q hq => (hmade q.1 (hmem q hq).1 q.2 (hmem q hq).2).1
  have hadd := loadAll_ok h2 s
  have hlen : rs.length = qs.length := by rw [hrs]; simp
  have htag : ∀ r ∈ rs, r.tag = T ∧ r.status = true := by
    intro r hr
    rw [hrs] at hr
    obtain ⟨q, hq, rfl⟩ := List.mem_map.1 hr
    exact (hmade q.1 (hmem q hq).1 q.2 (hmem q hq).2).2
  have hpos : 0 < qs.length := by
    obtain ⟨v, hv⟩ := List.exists_mem_of_ne_nil _ hv
    obtain ⟨f, hf⟩ := List.exists_mem_of_ne_nil _ hf
    refine List.length_pos_of_mem (a := (v, f)) ?_
    rw [hqs]
    exact List.mem_flatMap.2 ⟨v, hv, List.mem_map.2 ⟨f, hf, rfl⟩⟩
  obtain ⟨s', L, e1, e2, e3⟩ := uniqueLabels_by_name (reachable_addAll hs rs)
    (List.ne_nil_of_mem (visited_new (s := s) htag (k := 0) (by omega)))
  have hreq : requests glob (resolveOpts loc glo) str = qs := by
    unfold requests
    rw [hvars, hfiles, hqs]
  have hlen' : s'.heap.length = (rs.foldl addNew s).heap.length := by
    have h : ∀ j : Nat, s'.heap[j]? = none ↔ (rs.foldl addNew s).heap[j]? = none := fun j => by rw [e3 j]; simp
    simp only [List.getElem?_eq_none_iff] at h
    exact le_antisymm ((h _).2 le_rfl) ((h _).1 le_rfl)
  refine ⟨rs.foldl addNew s, s', ?_, ?_, e1, e2, reachable_same_lists (reachable_addAll hs rs) e2 hlen', fun j => ?_⟩
  · unfold load
    simp only [hstr, hreq, hadd, e1, bind, Except.bind, pure, Except.pure]
  · rw [← hqs]
    refine ⟨fun j hj => ?_, fun k q hk => ?_, ?_, fun t => ?_⟩
    · rw [foldl_addNew_heap, List.getElem?_append_left hj]
    · have hr : rs[k]? = some (made q.1 q.2) := by rw [hrs, List.getElem?_map, hk]; rfl
      refine ⟨made q.1 q.2, ?_, (htag _ (List.mem_of_getElem? hr)).1, (htag _ (List.mem_of_getElem? hr)).2, rfl⟩
      rw [foldl_addNew_heap, List.getElem?_append_right (by omega), Nat.add_sub_cancel_left, hr]
    · rw [foldl_addNew_heap]; simp [hlen]
    · rw [foldl_addNew_lookup rs s (fun r h => (htag r h).1) t, hlen]
      have : rs ≠ [] := by rintro rfl; simp at hlen; omega
      by_cases ht : t = T
      · simp [ht, this]
      · simp [ht]
  · rw [e3 j]
    cases (rs.foldl addNew s).heap[j]? with
    | none => exact ⟨[], rfl⟩
    | some d =>
      by_cases hj : j ∈ visited (rs.foldl addNew s) ((rs.foldl addNew s).tagsOf none)
      · exact ⟨L d.fileName, by simp only [Option.map_some, if_pos hj]⟩
      · exact ⟨d.label, by simp only [if_neg hj, Option.map_some]⟩

/-- **C125**, failures: if one of the files cannot be loaded, `load` fails as a whole. -/
theorem C125_load_error {s : Space F} {strs : List Str} {n : Nat} {str : Str} (hstr : strs[n]? = some str)
    (glob : Str → List Str) (make : Used → Str → Str → Except Err (GData F)) (loc glo : Given) (fv : Bool)
    {v f : Str} (hv : v ∈ (resolveOpts loc glo).varNames) (hf : f ∈ filesOf glob str) {e : Err}
    (hbad : make (resolveOpts loc glo) v f = .error e) :
    ∃ e', load glob make glo strs loc fv ⟨s, n⟩ = .error e' := by
  have key : ∀ (qs : List (Str × Str)) (s : Space F), (v, f) ∈ qs →
      ∃ e', qs.foldlM (loadOne (make (resolveOpts loc glo)) fv) s = .error e' := by
    intro qs
    induction qs with
    | nil => intro s h; cases h
    | cons q qs ih =>
      intro s h
      rw [List.foldlM_cons]
      cases hq : loadOne (make (resolveOpts loc glo)) fv s q with
      | error e' => exact ⟨e', rfl⟩
      | ok s1 =>
        rcases List.mem_cons.1 h with rfl | h
        · exfalso
          simp only [loadOne, hbad, bind, Except.bind] at hq
          unfold nameErrorFails at hq
          split at hq <;> simp_all
        · exact ih s1 h
  obtain ⟨e', h⟩ := key (requests glob (resolveOpts loc glo) str) s
    (List.mem_flatMap.2 ⟨v, hv, List.mem_map.2 ⟨f, hf, rfl⟩⟩)
  refine ⟨e', ?_⟩
  unfold load
  simp only [hstr, h, bind, Except.bind]

end

/-! ## Command lines -/

section
variable {S α : Type}

theorem runLine_ok {table : List Str} (hn : table.Nodup) {glob : Str → List Str}
    {run loadStr : Str → α → S → Except Err S} {step : Str × α → S → Except Err S}
    (hfile : ∀ w a s, NamesFiles table glob w → step (w, a) s = loadStr w a s)
    (hcmd : ∀ w c a s, NamesCommand table w c → step (w, a) s = run c a s) :
    ∀ {line : List (Str × α)} (_ : ∀ w ∈ line, NamesFiles table glob w.1 ∨ ∃ c, c ≠ "load".toList ∧ NamesCommand table w.1 c)
    (strs : List Str), ∃ cmds, resolveAll table glob (line.map Prod.fst) strs =
        .ok (cmds, strs ++ (line.map Prod.fst).filter (isFile table glob)) ∧
      ∀ (L : List Str) (idx : Nat) (s : S), (∃ rest, L.drop idx = (line.map Prod.fst).filter (isFile table glob) ++ rest) →
      runAll run loadStr L (cmds.zip (line.map Prod.snd)) idx s = line.foldlM (fun s w => step w s) s
  | [], _, strs => ⟨[], by simp [resolveAll], fun _ _ _ _ => rfl⟩
  | (w, a) :: line, h, strs => by
    rcases h (w, a) (by simp) with hf | ⟨c, hc, hcm⟩
    · obtain ⟨cmds, h1, h2⟩ := runLine_ok hn hfile hcmd (line := line) (fun x hx => h x (by simp [hx])) (strs ++ [w])
      have hp : isFile table glob w = true := by simp [isFile, getCommand_file _ _ hf]
      refine ⟨"load".toList :: cmds, ?_, ?_⟩
      · rw [List.map_cons, resolveAll, getCommand_file _ _ hf]
        simp only [bind, Except.bind, h1, pure, Except.pure]
        rw [List.filter_cons_of_pos hp]
        simp
      · rintro L idx s ⟨rest, hL⟩
        rw [List.map_cons, List.filter_cons_of_pos hp] at hL
        have hidx : L[idx]? = some w := by
          have := congrArg (fun l => l[0]?) hL
          simpa using this
        have hdrop : L.drop (idx + 1) = (line.map Prod.fst).filter (isFile table glob) ++ rest := by
          rw [← List.tail_drop, hL]; rfl
        rw [List.map_cons, List.zip_cons_cons, List.foldlM_cons, runAll]
        simp only [if_true, hidx, hfile w a s hf]
        cases loadStr w a s with
        | error e => rfl
        | ok s1 => exact h2 L (idx + 1) s1 ⟨rest, hdrop⟩
    · obtain ⟨cmds, h1, h2⟩ := runLine_ok hn hfile hcmd (line := line) (fun x hx => h x (by simp [hx])) strs
      have hp : ¬ isFile table glob w = true := by simpa [isFile, getCommand_command hn _ _ hcm] using hc
      refine ⟨c :: cmds, ?_, ?_⟩
      · rw [List.map_cons, resolveAll, getCommand_command hn _ _ hcm]
        simp only [bind, Except.bind, h1, pure, Except.pure]
        rw [List.filter_cons_of_neg hp]
      · intro L idx s hL
        rw [List.map_cons, List.filter_cons_of_neg hp] at hL
        rw [List.map_cons, List.zip_cons_cons, List.foldlM_cons, runAll]
        simp only [if_neg hc, hcmd w c a s hcm]
        cases run c a s with
        | error e => rfl
        | ok s1 => exact h2 L idx s1 hL

/-- **C125**, command lines: a line of files and commands other than `load`, each with its options, runs word by word from left
to right: a word that names files loads just these, a command (or its abbreviation) runs that command on what the words before
it have left; the first word that fails ends the run. -/
theorem C125_line {table : List Str} (hn : table.Nodup) {glob : Str → List Str}
    {run loadStr : Str → α → S → Except Err S} {step : Str × α → S → Except Err S}
    (hfile : ∀ w a s, NamesFiles table glob w → step (w, a) s = loadStr w a s)
    (hcmd : ∀ w c a s, NamesCommand table w c → step (w, a) s = run c a s)
    {line : List (Str × α)} (h : ∀ w ∈ line, NamesFiles table glob w.1 ∨ ∃ c, c ≠ "load".toList ∧ NamesCommand table w.1 c) (s : S) :
    runLine table glob run loadStr line s = line.foldlM (fun s w => step w s) s := by
  obtain ⟨cmds, h1, h2⟩ := runLine_ok hn hfile hcmd h []
  unfold runLine
  rw [h1]
  simp only [bind, Except.bind, List.nil_append]
  exact h2 _ 0 s ⟨[], by simp⟩

/-- **C125**, command lines: if some word is neither a command, nor an abbreviation of exactly one, nor the name of files, then
nothing runs at all, whatever comes before it. -/
theorem C125_line_rejected {table : List Str} {glob : Str → List Str} {run loadStr : Str → α → S → Except Err S}
    {line : List (Str × α)} {w : Str × α} (hw : w ∈ line) (h1 : ¬ NamesFiles table glob w.1)
    (h2 : ∀ c, ¬ NamesCommand table w.1 c) (s : S) : runLine table glob run loadStr line s = .error .fail := by
  have hbad : ∀ strs, getCommand table glob strs w.1 = .error .fail := by
    intro strs
    rcases C34_exhaustive (table := table) glob w.1 with ⟨c, hc, -⟩ | ⟨g1, c, g2, c', g3, g4, g5, g6⟩ | h | ⟨g1, g2⟩
    · exact absurd hc (h2 c)
    · exact C34_ambiguous glob strs g1 g2 g3 g4 g5 g6
    · exact absurd h h1
    · exact C34_nothing glob strs g1 g2
  have hall : ∀ (words : List Str) (strs : List Str), w.1 ∈ words → resolveAll table glob words strs = .error .fail := by
    intro words
    induction words with
    | nil => intro _ h; cases h
    | cons x ws ih =>
      intro strs hx
      rw [resolveAll]
      rcases List.mem_cons.1 hx with rfl | hx
      · rw [hbad]; rfl
      · have : (∃ r, getCommand table glob strs x = .ok r) ∨ getCommand table glob strs x = .error .fail := by
          unfold getCommand
          split
          · exact .inl ⟨_, rfl⟩
          · split
            · exact .inl ⟨_, rfl⟩
            · exact .inr rfl
            · split
              · exact .inl ⟨_, rfl⟩
              · exact .inr rfl
        rcases this with ⟨r, hr⟩ | hr
        · rw [hr]
          simp only [bind, Except.bind, ih r.2 hx]
        · rw [hr]; rfl
  unfold runLine
  rw [hall _ [] (List.mem_map.2 ⟨w, hw, rfl⟩)]
  rfl

end

/-! ## Concrete cases -/

namespace LoadCmdEx

def d0 : GData ℚ := { GData.new "a".toList [] {} with fileName := "old_0.gkyl".toList }

def mk (_ : Used) (v f : Str) : Except Err (GData ℚ) :=
  .ok { GData.new "t".toList v {} with fileName := f }

/-- Two variables, one file, onto a store with one dataset. -/
example : ∃ s1 s' : Space ℚ, load (fun _ => []) mk {} ["x_1.bp".toList] { varname := ["u,v".toList] } false
      ⟨({} : Space ℚ).addNew d0, 0⟩ = .ok ⟨s', 1⟩ ∧ setUniqueLabels s1 = .ok s' ∧ s1.heap.length = 3 ∧
      (s1.lookup "t".toList).getD [] = [1, 2] := by
  obtain ⟨s1, s', h1, h2, h3, -⟩ := C125_load (Reachable.empty.add d0) (strs := ["x_1.bp".toList]) (n := 0) rfl (fun _ => []) mk
    { varname := ["u,v".toList] } {} false (vars := ["u".toList, "v".toList]) (files := ["x_1.bp".toList]) (by decide +kernel)
    (by decide +kernel) (by simp) (by simp) (T := "t".toList)
    (made := fun v f => { GData.new "t".toList v {} with fileName := f })
    (fun v _ f _ => ⟨⟨_, rfl, rfl⟩, rfl, rfl⟩)
  refine ⟨s1, s', h1, h3, by rw [h2.length]; rfl, ?_⟩
  rw [h2.lists]
  decide +kernel

/-- `a.gkyl ev b.gkyl plot`, where the state is the list of what has happened. -/
example : runLine ["load".toList, "ev".toList, "plot".toList] (fun w => if '.' ∈ w then [w] else [])
      (fun c (_ : Unit) (s : List Str) => .ok (s ++ [c])) (fun f _ s => .ok (s ++ [f]))
      [("a.gkyl".toList, ()), ("ev".toList, ()), ("b.gkyl".toList, ()), ("pl".toList, ())] [] =
    .ok ["a.gkyl".toList, "ev".toList, "b.gkyl".toList, "plot".toList] := by
  decide +kernel

/-- The words of that line are covered by `C125_line`. -/
example : NamesFiles ["load".toList, "ev".toList, "plot".toList] (fun w => if '.' ∈ w then [w] else []) "a.gkyl".toList ∧
    NamesCommand ["load".toList, "ev".toList, "plot".toList] "pl".toList "plot".toList := by
  refine ⟨⟨?_, by decide⟩, by decide, .inr ⟨by decide, ?_⟩⟩
  · intro c hc
    simp only [List.mem_cons, List.not_mem_nil, or_false] at hc
    rcases hc with rfl | rfl | rfl <;> rintro ⟨r, h⟩ <;> simp at h
  · intro c hc
    simp only [List.mem_cons, List.not_mem_nil, or_false] at hc
    rcases hc with rfl | rfl | rfl
    · refine ⟨fun ⟨r, h⟩ => by simp at h, fun h => by simp at h⟩
    · refine ⟨fun ⟨r, h⟩ => by simp at h, fun h => by simp at h⟩
    · exact ⟨fun _ => rfl, fun _ => ⟨"ot".toList, rfl⟩⟩

/-- `C125_line_rejected`: nothing is loaded, although the first word names a file. -/
example : runLine ["load".toList, "ev".toList] (fun w => if '.' ∈ w then [w] else [])
      (fun c (_ : Unit) (s : List Str) => .ok (s ++ [c])) (fun f _ s => .ok (s ++ [f]))
      [("a.gkyl".toList, ()), ("zz".toList, ())] [] = .error .fail := by
  refine C125_line_rejected (w := ("zz".toList, ())) (by simp) ?_ ?_ []
  · rintro ⟨-, h⟩
    exact h (by decide)
  · rintro c ⟨hc, h | ⟨-, h⟩⟩
    · subst h
      revert hc
      decide
    · obtain ⟨r, hr⟩ := (h c hc).2 rfl
      simp only [List.mem_cons, List.not_mem_nil, or_false] at hc
      rcases hc with rfl | rfl <;> simp at hr

/-- `C125_load_error`. -/
example : ∃ e, load (F := ℚ) (fun _ => []) (fun _ _ _ => .error .osError) {} ["x.bp".toList] {} false ⟨({} : Space ℚ), 0⟩ = .error e :=
  C125_load_error (v := "CartGridField".toList) (f := "x.bp".toList) (e := .osError) rfl _ _ _ _ _ (by decide +kernel) (by decide +kernel) rfl

end LoadCmdEx
end Cli
end Pgkyl
