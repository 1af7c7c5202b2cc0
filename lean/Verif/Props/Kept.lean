import Verif.Lemmas.KeptCommands
import Verif.Props.TagCommute
/-!
# C157: What a command line leaves as it is
-/

namespace Pgkyl
open Spec Space Cmd

section
variable {F : Type} [_root_.Field F] [LinearOrder F]

theorem command_inner {c : Space F → Except Err (Space F)} {may : Tag → GData F → Prop} (hc : Command c may) {s s' : Space F}
    (h : c s = .ok s') : Inner (May may s) s s' := by
  cases hc with
  | select | integrate | interpolate | differentiate | magsq | grid => exact pushCmd_inner h
  | euler | mhd | tenmoment => exact fluidCmd_inner h
  | velocity | bparrotate | bperprotate | parrotate | perprotate => exact pairs_inner h
  | energetics => exact energeticsCmd_inner h
  | agyro =>
    unfold agyroCmd at h
    split at h
    · exact zipLoop_inner h
    · cases h
  | momAgyro =>
    unfold momAgyroCmd at h
    split at h
    · exact zipLoop_inner h
    · cases h
  | pair => exact Kinetic.pairCmd_inner h
  | relchange _ _ _ _ hu => exact relchangeCmd_inner hu h
  | collect _ _ _ _ _ hu => exact Collect.collectCmd_inner hu h
  | val2coord => exact V2c.val2coord_inner h
  | selectBlocks => exact Multi.selectBlocks_inner h
  | evTag => exact Ev.evTag_inner h
  | ev => exact Ev.ev_inner h
  | load => exact Cli.load_inner h
  | gkDistf => exact Gk.gkDistf_inner h
  | activate => exact activateCmd_inner h
  | deactivate => exact deactivateCmd_inner h

end

theorem realCommand_inner {c : Space ℝ → Except Err (Space ℝ)} {may : Tag → GData ℝ → Prop} (hc : RealCommand c may)
    {s s' : Space ℝ} (h : c s = .ok s') : Inner (May may s) s s' := by
  cases hc with
  | any hc => exact command_inner hc h
  | current => exact Kinetic.currentCmd_inner h
  | growth => exact Growth.growthCmd_inner h

/-- Nothing is lost in a step, and nothing in the following ones: nothing is lost. -/
theorem Spec.Kept.trans {F : Type} {m1 m2 : Tag → GData F → Prop} {s1 s2 s3 : Space F} (h1 : Kept m1 s1 s2) (h2 : Kept m2 s2 s3) :
    Kept (fun t d => m1 t d ∨ m2 t d) s1 s3 where
  tags := h1.tags.trans h2.tags
  datasets := fun t k d hd => by
    obtain ⟨d2, e1, e2, e3⟩ := h1.datasets t k d hd
    obtain ⟨d3, e4, e5, e6⟩ := h2.datasets t k d2 e1
    refine ⟨d3, e4, e5.trans e2, fun hn => ?_⟩
    have := e3 fun h => hn (Or.inl h)
    subst this
    exact e6 fun h => hn (Or.inr h)

theorem line_kept {F : Type} {C : (Space F → Except Err (Space F)) → (Tag → GData F → Prop) → Prop}
    (hC : ∀ c may, C c may → ∀ s s', c s = .ok s' → Inner (May may s) s s') :
    ∀ {line : List ((Space F → Except Err (Space F)) × (Tag → GData F → Prop))} {s s' : Space F}, s.Inv →
      (∀ c ∈ line, C c.1 c.2) → line.foldlM (fun s c => c.1 s) s = .ok s' →
      Kept (fun t d => ∃ c ∈ line, c.2 t d) s s'
  | [], s, s', hi, _, h => by
    simp only [List.foldlM_nil, pure, Except.pure, Except.ok.injEq] at h
    subst h
    exact ⟨List.prefix_refl _, fun t k d hd => ⟨d, hd, rfl, fun _ => rfl⟩⟩
  | c :: line, s, s', hi, hl, h => by
    rw [foldlM_ok_cons] at h
    cases h1 : c.1 s with
    | error e => rw [h1] at h; cases h
    | ok s1 =>
      rw [h1] at h
      have hin := hC _ _ (hl c List.mem_cons_self) s s1 h1
      have h2 := (hin.kept hi).trans (line_kept hC (hin.inv hi) (fun b hb => hl b (List.mem_cons_of_mem _ hb)) h)
      refine ⟨h2.tags, fun t k d hd => ?_⟩
      obtain ⟨d', e1, e2, e3⟩ := h2.datasets t k d hd
      refine ⟨d', e1, e2, fun hn => e3 ?_⟩
      rintro (hm | ⟨b, hb, hm⟩)
      · exact hn ⟨c, List.mem_cons_self, hm⟩
      · exact hn ⟨b, List.mem_cons_of_mem _ hb, hm⟩

section
variable {F : Type} [_root_.Field F] [LinearOrder F]

/-- **C157.**  Whatever a successful command does, every dataset is still found under its tag and number, and those that
the command is not applied to are as they were. -/
theorem C157_command {c : Space F → Except Err (Space F)} {may : Tag → GData F → Prop} (hc : Command c may) {s s' : Space F}
    (hs : Reachable s) (h : c s = .ok s') : Kept may s s' :=
  (command_inner hc h).kept (reachable_inv hs)

/-- **C157.**  The same for command lines of any length: a dataset that none of the commands may change is the same
afterwards, under the same tag and number. -/
theorem C157_line {line : List ((Space F → Except Err (Space F)) × (Tag → GData F → Prop))}
    (hl : ∀ c ∈ line, Command c.1 c.2) {s s' : Space F} (hs : Reachable s)
    (h : line.foldlM (fun s c => c.1 s) s = .ok s') : Kept (fun t d => ∃ c ∈ line, c.2 t d) s s' :=
  line_kept (C := Command) (fun _ _ hc _ _ => command_inner hc) (reachable_inv hs) hl h

end

/-- **C157.**  Command lines that contain `current` and `growth` as well. -/
theorem C157_real_line {line : List ((Space ℝ → Except Err (Space ℝ)) × (Tag → GData ℝ → Prop))}
    (hl : ∀ c ∈ line, RealCommand c.1 c.2) {s s' : Space ℝ} (hs : Reachable s)
    (h : line.foldlM (fun s c => c.1 s) s = .ok s') : Kept (fun t d => ∃ c ∈ line, c.2 t d) s s' :=
  line_kept (C := RealCommand) (fun _ _ hc _ _ => realCommand_inner hc) (reachable_inv hs) hl h

/-! ## Activity -/

/-- Only activities differ. -/
def SameButStatus {F : Type} (s s' : Space F) : Prop :=
  s'.dict = s.dict ∧ ∀ i : Nat, ∀ d, s.heap[i]? = some d → ∃ b : Bool, s'.heap[i]? = some { d with status := b }

theorem SameButStatus.set {F : Type} {s0 s : Space F} (h : SameButStatus s0 s) (i : Nat) {f : GData F → GData F} {b : Bool}
    (hf : ∀ d, f d = { d with status := b }) : SameButStatus s0 (s.update i f) := by
  refine ⟨h.1, fun j d hd => ?_⟩
  obtain ⟨b', e⟩ := h.2 j d hd
  rw [update_heap?]
  split
  · exact ⟨b, by rw [e]; simp [hf]⟩
  · exact ⟨b', e⟩

theorem setAll_same {F : Type} {tag : Option Tag} {sel : Sel} {f : GData F → GData F} {b : Bool}
    (hf : ∀ d, f d = { d with status := b }) {s0 s s' : Space F} (h0 : SameButStatus s0 s)
    (h : iterate id tag false false sel (fun s _ i => .ok (s.update i f)) s = .ok s') : SameButStatus s0 s' :=
  iterate_preserves id (P := SameButStatus s0) (fun st i j st' hP hb => by
    simp only [Except.ok.injEq] at hb
    subst hb; exact hP.set j hf) h0 h

/-- Objects that are listed in both stores at the same place. -/
theorem dataset_of {F : Type} {s s' : Space F} {R : GData F → GData F → Prop}
    (hl : ∀ t l, s.lookup t = some l → ∃ l', s'.lookup t = some (l ++ l'))
    (hR : ∀ i : Nat, ∀ d, s.heap[i]? = some d → ∃ d', s'.heap[i]? = some d' ∧ R d d') {t : Tag} {k : Nat} {d : GData F}
    (hd : Spec.dataset s t k = some d) : ∃ d', Spec.dataset s' t k = some d' ∧ R d d' := by
  unfold Spec.dataset at hd ⊢
  obtain ⟨i, h1, h2⟩ := Option.bind_eq_some_iff.1 hd
  obtain ⟨l, h3, h4⟩ := Option.bind_eq_some_iff.1 h1
  obtain ⟨l', e⟩ := hl t l h3
  obtain ⟨d', e1, e2⟩ := hR i d h2
  refine ⟨d', ?_, e2⟩
  rw [e, Option.bind_some, List.getElem?_append_left (List.getElem?_eq_some_iff.1 h4).1, h4, Option.bind_some, e1]

theorem SameButStatus.datasets {F : Type} {s s' : Space F} (h : SameButStatus s s') : s'.dict = s.dict ∧
    ∀ t k d, Spec.dataset s t k = some d → ∃ b : Bool, Spec.dataset s' t k = some { d with status := b } := by
  refine ⟨h.1, fun t k d hd => ?_⟩
  obtain ⟨d', e, b, rfl⟩ := dataset_of (R := fun d d' => ∃ b : Bool, d' = { d with status := b })
    (fun t l hl => ⟨[], by rw [List.append_nil, ← hl]; unfold Space.lookup; rw [h.1]⟩)
    (fun i d hd => (h.2 i d hd).elim fun b e => ⟨_, e, b, rfl⟩) hd
  exact ⟨b, e⟩

/-- **C157.**  `activate` and `deactivate` change activities and nothing else. -/
theorem C157_status {F : Type} {tag : Option Tag} {index : Option (List Char)} {focused : Bool} {s s' : Space F}
    (h : s.activateCmd tag index focused = .ok s' ∨ s.deactivateCmd tag index focused = .ok s') : s'.dict = s.dict ∧
    ∀ t k d, Spec.dataset s t k = some d → ∃ b : Bool, Spec.dataset s' t k = some { d with status := b } := by
  have h0 : SameButStatus s s := ⟨rfl, fun i d hd => ⟨d.status, hd⟩⟩
  have hd : ∀ d : GData F, d.deactivate = { d with status := false } := fun _ => rfl
  have ha : ∀ d : GData F, d.activate = { d with status := true } := fun _ => rfl
  refine SameButStatus.datasets ?_
  rcases h with h | h
  · cases focused with
    | true => exact setAll_same ha h0 h
    | false =>
      simp only [activateCmd, Bool.false_eq_true, if_false, bind, Except.bind] at h
      split at h
      · cases h
      · rename_i s1 h1
        exact setAll_same ha (setAll_same hd h0 h1) h
  · cases focused with
    | false => exact setAll_same hd h0 h
    | true =>
      simp only [deactivateCmd, if_true, bind, Except.bind] at h
      split at h
      · cases h
      · rename_i s1 h1
        exact setAll_same hd (setAll_same hd h0 h1) h

/-! ## Labels -/

/-- Of the old objects only the labels differ. -/
def SameButLabel {F : Type} (s s' : Space F) : Prop :=
  ∀ i : Nat, ∀ d, s.heap[i]? = some d → ∃ b : List Char, s'.heap[i]? = some { d with label := b }

theorem SameButLabel.addNew {F : Type} {s0 s : Space F} (h : SameButLabel s0 s) (g : GData F) : SameButLabel s0 (s.addNew g) :=
  fun j d hd => by
    obtain ⟨b, e⟩ := h j d hd
    exact ⟨b, by rw [addNew_heap, List.getElem?_append_left (List.getElem?_eq_some_iff.1 e).1]; exact e⟩

theorem setUniqueLabels_same {F : Type} {s0 s s' : Space F} (h0 : SameButLabel s0 s) (h : Cli.setUniqueLabels s = .ok s') :
    SameButLabel s0 s' := by
  unfold Cli.setUniqueLabels at h
  simp only [bind, Except.bind] at h
  split at h
  · cases h
  · split at h
    · cases h
    · cases h
      refine foldl_mem (Q := SameButLabel s0) ?_ h0
      intro e _ st hst j d hd
      obtain ⟨b, e1⟩ := hst j d hd
      rw [update_heap?]
      split
      · exact ⟨e.2, by rw [e1]; rfl⟩
      · exact ⟨b, e1⟩

/-- **C157.**  Loading files changes nothing but the labels of the active datasets that were there before. -/
theorem C157_load {F : Type} [_root_.Field F] [LinearOrder F] {glob : Cli.Str → List Cli.Str}
    {make : Cli.Used → Cli.Str → Cli.Str → Except Err (GData F)} {glo : Cli.Given} {strs : List Cli.Str} {loc : Cli.Given}
    {fv : Bool} {s : Space F} {n : Nat} {st : Cli.Session F} (hs : Reachable s)
    (h : Cli.load glob make glo strs loc fv ⟨s, n⟩ = .ok st) :
    ∀ t k d, Spec.dataset s t k = some d → ∃ b : List Char, Spec.dataset st.data t k = some { d with label := b } ∧
      (d.status = false → b = d.label) := by
  intro t k d hd
  have hc := C157_command (Command.load glob make glo strs loc fv n) hs (s' := st.data) (by rw [h]; rfl)
  have hin := Cli.load_inner (glob := glob) (make := make) (glo := glo) (strs := strs) (loc := loc) (fv := fv) (n := n)
    (s := s) (s' := st.data) (by rw [h]; rfl)
  have hsame : SameButLabel s st.data := by
    unfold Cli.load at h
    split at h
    · cases h
    · simp only [bind, Except.bind] at h
      split at h
      · cases h
      · rename_i s1 h1
        cases h2 : Cli.setUniqueLabels s1 with
        | error e => rw [h2] at h; cases h
        | ok s2 =>
          rw [h2] at h
          cases h
          refine setUniqueLabels_same ?_ h2
          refine foldlM_mem (Q := fun r => SameButLabel s r) ?_ (fun i d hd => ⟨d.label, hd⟩) h1
          intro q _ st st' hst hb
          unfold Cli.loadOne Cli.nameErrorFails at hb
          simp only [bind, Except.bind, pure, Except.pure] at hb
          split at hb
          · cases hb
          · split at hb
            · cases hb
            · split at hb
              · cases hb
              · cases hb; exact hst.addNew _
  obtain ⟨d', e, b, rfl⟩ := dataset_of (R := fun d d' => ∃ b : List Char, d' = { d with label := b })
    (fun t l hl => (hin.lists t l hl).elim fun l' e => ⟨l', e.1⟩)
    (fun i d hd => (hsame i d hd).elim fun b e => ⟨_, e, b, rfl⟩) hd
  refine ⟨b, e, fun hst => ?_⟩
  obtain ⟨d'', e1, -, e3⟩ := hc.datasets t k d hd
  rw [e] at e1
  cases e1
  have := e3 (by simp [hst])
  exact congrArg GData.label this

/-! ## An example -/

namespace KeptEx
open TagCommuteEx (dataset contents)

/-- Under the tag `a` an active dataset and one that is not, under the tag `b` an active one. -/
def start : Space ℚ := perform [.add (dataset "a" [1, 2, 3, 4]), .add (dataset "b" [5, 6, 7, 8]),
  .add { dataset "a" [9, 8, 7, 6] with status := false }]

/-- `magsq -u a`, `grid -u a -t c`, `integrate 0 -u c`, `deactivate -t b`. -/
def line : List ((Space ℚ → Except Err (Space ℚ)) × (Tag → GData ℚ → Prop)) :=
  [(magsqCmd (some "a".toList) none [], fun t d => NoTag none ∧ Named (some "a".toList) t ∧ d.status = true),
   (gridCmd (some "a".toList) (some "c".toList) [],
    fun t d => NoTag (some "c".toList) ∧ Named (some "a".toList) t ∧ d.status = true),
   (integrateCmd "0".toList (some "c".toList) none [],
    fun t d => NoTag none ∧ Named (some "c".toList) t ∧ d.status = true),
   (fun s => s.deactivateCmd (some "b".toList) none false, fun _ d => d.status = true)]

end KeptEx

open KeptEx in
/-- The hypotheses of C157 are met; the dataset that is not active is left alone, the others change. -/
example : Reachable start ∧ (∀ c ∈ line, Command c.1 c.2) ∧
    TagCommuteEx.contents (line.foldlM (fun s c => c.1 s) start) = some [[5, 25], [5, 6, 7, 8], [9, 8, 7, 6], [3]] := by
  refine ⟨Space.reachable_perform _, ?_, by decide +kernel⟩
  simp only [line, List.forall_mem_cons]
  exact ⟨.magsq _ _ _, .grid _ _ _, .integrate _ _ _ _, .deactivate _ _ _, by simp⟩

end Pgkyl
