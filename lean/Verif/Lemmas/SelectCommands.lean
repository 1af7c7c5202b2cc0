import Verif.Spec.DgCommands
import Verif.Props.Select
import Verif.Props.Integrate
import Verif.Lemmas.Commands
/-!
# Helper lemmas for C96 and C97: the commands `integrate` and `select`
-/

namespace Pgkyl.Cmd
open Spec

section
variable {F : Type} [LinearOrder F]

/-- A coordinate is looked up as the cell it denotes. -/
theorem lookup_denotes (pf : List Char → Option F) {nodes : List F} {n lo hi : Nat} {c : F} (hs : Increasing nodes)
    (h : Denotes nodes n (some (.float c)) lo hi) :
    lookup (some (NArr.ofList nodes)) (n == nodes.length) c = .ok (lo : Int) := by
  have key : ∀ j : Nat, idxParser pf (.float c) (some (NArr.ofList nodes)) (n == nodes.length) = .ok (.int j) →
      lookup (some (NArr.ofList nodes)) (n == nodes.length) c = .ok (j : Int) := by
    intro j hj
    simp only [idxParser, bind, Except.bind, pure, Except.pure] at hj
    cases hh : lookup (some (NArr.ofList nodes)) (n == nodes.length) c with
    | error e => rw [hh] at hj; simp at hj
    | ok k => rw [hh] at hj; simp only [Except.ok.injEq, Idx.int.injEq] at hj; rw [hj]
  cases h with
  | coord c i hc h =>
    have hin := h
    obtain ⟨_, _, _, h2, _⟩ := h
    have hlt := (List.getElem?_eq_some_iff.1 h2).1
    obtain ⟨j, hj, hj'⟩ := C09_coordinate_selects_containing_cell pf nodes hs (by omega) c
    apply key
    rw [C09_cell_unique hs hin hj', ← hj]
    congr 1; simp; omega
  | nodalCoord c i hc h hi =>
    obtain ⟨j, hj, hj'⟩ := C09_coordinate_selects_first_node pf nodes hs c
    have : lo = j := by
      obtain ⟨h1, h2, h3⟩ := h
      obtain ⟨k1, k2, k3⟩ := hj'
      rcases Nat.lt_trichotomy lo j with e | e | e
      · have hlt : lo < nodes.length := by omega
        have := k2 lo _ e (List.getElem?_eq_getElem hlt)
        exact absurd this (not_lt.2 (h3 _ (List.getElem?_eq_getElem hlt)))
      · exact e
      · have hlt : j < nodes.length := by omega
        have := h2 j _ e (List.getElem?_eq_getElem hlt)
        exact absurd this (not_lt.2 (k3 _ (List.getElem?_eq_getElem hlt)))
    apply key
    rw [this, ← hj]
    simp [hc]

/-- The end of a range is read as the cell it names. -/
theorem endText_index (pf : List Char → Option F) {nodes : List F} {n i : Nat} {t : List Char} (hs : Increasing nodes)
    (h : EndText pf nodes n t i) :
    t ≠ [] ∧ ',' ∉ t ∧ ':' ∉ t ∧ stringToIndex pf t (some (NArr.ofList nodes)) (n == nodes.length) = .ok (i : Int) := by
  cases h with
  | number i => exact ⟨dec_ne_nil _, dec_comma _, dec_colon _, stringToIndex_dec ..⟩
  | coord ht h =>
    obtain ⟨h0, h1, h2, h3, h4⟩ := ht
    refine ⟨h0, h2, h3, ?_⟩
    rw [stringToIndex, if_neg h1, h4]
    exact lookup_denotes pf hs h

/-- A text of the command selects what an argument of the function does. -/
theorem text_arg (pf : List Char → Option F) {nodes : List F} {n lo hi : Nat} {z : Option (List Char)} (hs : Increasing nodes)
    (h : TextDenotes pf nodes n z lo hi) :
    ∃ z', Denotes nodes n z' lo hi ∧ ∀ d, axisSel pf true d (NArr.ofList nodes) n (z.map .str) =
      axisSel pf true d (NArr.ofList nodes) n z' := by
  have hg : ∀ d, gridLen true d (NArr.ofList nodes) = .ok nodes.length := fun _ => rfl
  have congrS : ∀ (t : List Char) (z' : IdxArg F),
      idxParser pf (.str t) (some (NArr.ofList nodes)) (n == nodes.length) =
        idxParser pf z' (some (NArr.ofList nodes)) (n == nodes.length) →
      ∀ d, axisSel pf true d (NArr.ofList nodes) n ((some t).map .str) =
        axisSel pf true d (NArr.ofList nodes) n (some z') := by
    intro t z' he d
    simp only [axisSel, Option.map_some, hg, bind, Except.bind, he]
  cases h with
  | all => exact ⟨none, .all, fun _ => rfl⟩
  | numbers h => exact ⟨_, h, fun _ => rfl⟩
  | @coord t c _ _ ht h =>
    refine ⟨_, h, congrS _ _ ?_⟩
    obtain ⟨h0, h1, h2, h3, h4⟩ := ht
    simp only [idxParser, splitOn_notMem h2, splitOn_notMem h3, List.length_singleton, stringToIndex, if_neg h1, h4]
    rfl
  | @range t u _ _ ht hu hneg hlt hn =>
    refine ⟨_, .range lo hi hlt hn, congrS _ _ ?_⟩
    obtain ⟨t0, t1, t2, t3⟩ := endText_index pf hs ht
    obtain ⟨u0, u1, u2, u3⟩ := endText_index pf hs hu
    have hst : sliceTexts (some (NArr.ofList nodes)) t u = .ok (t, u) := by
      simp only [sliceTexts, if_neg t0, if_neg u0, bind, Except.bind, pure, Except.pure]
      cases hp : pyInt u with
      | none => rfl
      | some k => simp only [if_neg (not_lt.2 (hneg k hp))]
    rw [idxParser_slice pf t2 u2 t1 u1, C10_slice_string pf lo hi]
    simp only [hst, bind, Except.bind, t3, u3, pure, Except.pure]

/-- The selections of all axes, from the texts. -/
theorem axesSel_text (pf : List Char → Option F) (axes : List (SelAxis F)) : ∀ (zs : List (Option (List Char))) (d : Nat),
    (∀ a ∈ axes, Increasing a.nodes ∧ (a.nodes.length = a.n + 1 ∨ a.nodes.length = a.n) ∧ a.lo < a.hi) →
    (∀ (i : Nat) (a : SelAxis F), axes[i]? = some a → TextDenotes pf a.nodes a.n (zs[i]?.getD none) a.lo a.hi) →
    ∃ axes' : List (SelAxis F), axes'.map (·.n) = axes.map (·.n) ∧ axes'.map (·.nodes) = axes.map (·.nodes) ∧
      axes'.map (·.lo) = axes.map (·.lo) ∧ axes'.map (·.hi) = axes.map (·.hi) ∧ (∀ a ∈ axes', a.OK) ∧
      axesSel pf true d (axes.map (·.n)) (axes.map fun a => NArr.ofList a.nodes) (zs.map fun z => z.map .str) =
        axesSel pf true d (axes.map (·.n)) (axes.map fun a => NArr.ofList a.nodes) (axes'.map (·.z)) := by
  induction axes with
  | nil => exact fun zs d _ _ => ⟨[], rfl, rfl, rfl, rfl, by simp, rfl⟩
  | cons a as ih =>
    intro zs d hax hz
    obtain ⟨as', k1, k2, k3, k4, k5, k6⟩ := ih zs.tail (d + 1) (fun b hb => hax b (by simp [hb])) (fun i b hb => by
      have := hz (i + 1) b (by simpa using hb)
      rwa [List.getElem?_tail])
    obtain ⟨h1, h2, h3⟩ := hax a (by simp)
    obtain ⟨z', hd, he⟩ := text_arg pf h1 (hz 0 a rfl)
    refine ⟨{ a with z := z' } :: as', by simp [k1], by simp [k2], by simp [k3], by simp [k4], ?_, ?_⟩
    · intro b hb
      rcases List.mem_cons.1 hb with rfl | hb
      · exact ⟨h1, h2, hd, h3⟩
      · exact k5 b hb
    · have hh : (zs.map fun z => z.map (IdxArg.str (F := F))).headD none = (zs[0]?.getD none).map .str := by
        cases zs <;> rfl
      have ht : (zs.map fun z => z.map (IdxArg.str (F := F))).tail = zs.tail.map fun z => z.map .str := by
        cases zs <;> rfl
      simp only [List.map_cons, axesSel, hh, ht, he, k6, List.headD_cons, List.tail_cons]

theorem axesSel_take (pf : List Char → Option F) (uniform : Bool) : ∀ (ns : List Nat) (gs : List (NArr F)) (zs : List (Option (IdxArg F))) (d k : Nat),
    ns.length ≤ k → axesSel pf uniform d ns gs (zs.take k) = axesSel pf uniform d ns gs zs := by
  intro ns
  induction ns with
  | nil => intros; rfl
  | cons n ns ih =>
    intro gs zs d k hk
    cases k with
    | zero => simp at hk
    | succ k =>
      cases gs with
      | nil => rfl
      | cons g gs =>
        cases zs with
        | nil => rfl
        | cons z zs =>
          simp only [List.take_succ_cons, axesSel, List.headD_cons, List.tail_cons]
          rw [ih gs zs (d + 1) k (by simpa using hk)]

variable {pf : List Char → Option F}

/-- `select` with the texts of the command. -/
theorem select_text {comp : Option (List Char)} {zs : List (Option (List Char))} {d : GData F} {axes : List (SelAxis F)}
    {values : NArr F} {cs : List Nat} (h : Asks pf comp zs d axes values cs) :
    ∃ out, select pf d (comp.map .str) (zs.map fun z => z.map .str) false =
        .ok (axes.map fun a => NArr.ofList a.nodesOut, out, d) ∧ IsPart values out axes cs ∧
      (∀ a ∈ axes.map fun a => NArr.ofList a.nodesOut, a.data ≠ []) := by
  obtain ⟨nc, hA, hc, hax, hz⟩ := h
  obtain ⟨axes', k1, k2, k3, k4, k5, k6⟩ := axesSel_text pf axes zs 0 hax hz
  have hlen : axes'.length = axes.length := by simpa using congrArg List.length k1
  have hnode : axes'.map (fun a => NArr.ofList a.nodes) = axes.map fun a => NArr.ofList a.nodes := by
    have := congrArg (List.map NArr.ofList) k2
    simpa [Function.comp_def] using this
  have hA' : HasAxes d axes' nc values :=
    { grid := by rw [hA.grid, hnode]
      vals := hA.vals
      wf := hA.wf
      shape := by rw [hA.shape, k1]
      dims := by rw [hA.dims, hlen]
      nonempty := fun e => hA.nonempty (by simpa [e] using hlen.symm)
      six := by rw [hlen]; exact hA.six }
  obtain ⟨out, ho, hp⟩ := C11_select_partial pf d axes' nc values hA' k5 _ cs hc []
  have hget : ∀ i : Nat, ∀ a a' : SelAxis F, axes[i]? = some a → axes'[i]? = some a' →
      a'.nodes = a.nodes ∧ a'.n = a.n ∧ a'.lo = a.lo ∧ a'.hi = a.hi := by
    intro i a a' ha ha'
    have e1 := congrArg (·[i]?) k1
    have e2 := congrArg (·[i]?) k2
    have e3 := congrArg (·[i]?) k3
    have e4 := congrArg (·[i]?) k4
    simp only [List.getElem?_map, ha, ha', Option.map_some, Option.some.injEq] at e1 e2 e3 e4
    exact ⟨e2, e1, e3, e4⟩
  have hmap : ∀ {β : Type} (f : SelAxis F → β), (∀ a a' : SelAxis F, a'.nodes = a.nodes → a'.n = a.n → a'.lo = a.lo →
      a'.hi = a.hi → f a' = f a) → axes'.map f = axes.map f := by
    intro β f hf
    apply List.ext_getElem (by simp [hlen])
    intro i h1 h2
    simp only [List.getElem_map]
    obtain ⟨e1, e2, e3, e4⟩ := hget i _ _ (List.getElem?_eq_getElem (by simpa using h2))
      (List.getElem?_eq_getElem (by simpa using h1))
    exact hf _ _ e1 e2 e3 e4
  have hno : axes'.map (fun a => NArr.ofList a.nodesOut) = axes.map fun a => NArr.ofList a.nodesOut :=
    hmap _ fun a a' e1 e2 e3 e4 => by simp only [SelAxis.nodesOut, e1, e2, e3, e4]
  refine ⟨out, ?_, ?_, ?_⟩
  · rw [← hno, ← ho, List.append_nil]
    have h6 : axes.length ≤ 6 := hA.six
    have hsel : axesSel pf true 0 values.shape.dropLast (axes.map fun a => NArr.ofList a.nodes)
        ((zs.map fun z => z.map .str).take 6) =
        axesSel pf true 0 values.shape.dropLast (axes.map fun a => NArr.ofList a.nodes) ((axes'.map (·.z)).take 6) := by
      have hdl : values.shape.dropLast = axes.map (·.n) := by rw [hA.shape, List.dropLast_concat]
      rw [hdl, axesSel_take pf true _ _ _ _ _ (by simpa using h6), axesSel_take pf true _ _ _ _ _ (by simpa using h6)]
      exact k6
    cases axes with
    | nil => exact absurd rfl hA.nonempty
    | cons a as =>
      simp only [List.map_cons] at hsel
      have hu : ((NArr.ofList a.nodes).shape.length == 1) = true := rfl
      simp only [select, hA.grid, hA.vals, List.map_cons, hu, hsel]
  · refine ⟨hp.1, by rw [hp.2.1, hmap (fun a => a.hi - a.lo) fun a a' _ _ e3 e4 => by rw [e3, e4]], ?_⟩
    have e := hmap (fun a => a.hi - a.lo) fun a a' _ _ e3 e4 => by rw [e3, e4]
    have := hp.2.2
    rw [e, k3] at this
    exact this
  · rw [← hno]
    intro x hx
    obtain ⟨a, ha, rfl⟩ := List.mem_map.1 hx
    exact nodesOut_ne_nil (k5 a ha)

end

end Pgkyl.Cmd
