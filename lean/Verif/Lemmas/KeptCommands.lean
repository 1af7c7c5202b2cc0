import Verif.Lemmas.Kept
/-! # Lemmas for C157: the commands one by one -/

namespace Pgkyl
open Spec Space

theorem noTag_of {tag : Option Tag} (h : ∀ (c : Char) (cs : List Char), tag = some (c :: cs) → False) : NoTag tag := by
  cases tag with
  | none => exact Or.inl rfl
  | some t => cases t with
    | nil => exact Or.inr rfl
    | cons c cs => exact (h c cs rfl).elim

namespace Cmd
variable {F : Type} [Min F] [Max F]

theorem pushCmd_inner {f : GData F → Except Err (List (NArr F) × NArr F)} {use tag : Option Tag} {label : List Char}
    {s s' : Space F} (h : pushCmd f use tag label s = .ok s') :
    Inner (May (fun t d => NoTag tag ∧ Named use t ∧ d.status = true) s) s s' := by
  refine iterate_visits id (Q := fun r => Inner _ s r) ?_ (Inner.refl _ s) h
  intro st r i j st' hst hr hl ha hb
  have ha := ha rfl
  simp only [id] at hst hr hl ha hb ⊢
  split at hb
  · cases hb; exact hst
  · rename_i d hd
    simp only [bind, Except.bind] at hb
    split at hb
    · cases hb
    · rename_i gv hgv
      split at hb
      · split at hb
        · cases hb
        · cases hb; exact hst.addNew _
      · rename_i hnt
        split at hb
        · cases hb
        · rename_i q hq
          cases hb
          refine hst.updateActive hst hr hl ha (fun t d hN hs => ⟨noTag_of hnt, hN, hs⟩) fun d' hd' => ?_
          rw [hd] at hd'; cases hd'; exact (push_tag hq).1

theorem fluidCmd_inner {var : Option (NArr F → Except Err (NArr F))} {use tag : Option Tag} {label : List Char}
    {s s' : Space F} (h : fluidCmd var use tag label s = .ok s') :
    Inner (May (fun t d => NoTag tag ∧ Named use t ∧ d.status = true) s) s s' := by
  refine iterate_visits id (Q := fun r => Inner _ s r) ?_ (Inner.refl _ s) h
  intro st r i j st' hst hr hl ha hb
  have ha := ha rfl
  simp only [id] at hst hr hl ha hb ⊢
  split at hb
  · cases hb; exact hst
  · rename_i d hd
    split at hb
    · split at hb
      · cases hb; exact hst.addNew _
      · simp only [bind, Except.bind] at hb
        split at hb
        · cases hb
        · split at hb
          · cases hb
          · rename_i q hq
            cases hb
            refine (hst.addNew _).update (fun d' hd' => ?_) fun d' hd' => ?_
            · rw [addNew_heap, List.getElem?_append_right (le_refl _)] at hd'
              simp only [Nat.sub_self, List.getElem?_cons_zero, Option.some.injEq] at hd'
              rw [← hd']; exact (push_tag hq).1
            · have h1 := (List.getElem?_eq_some_iff.1 hd').1
              have h2 := hst.len
              omega
    · rename_i hnt
      split at hb
      · cases hb; exact hst
      · simp only [bind, Except.bind] at hb
        split at hb
        · cases hb
        · split at hb
          · cases hb
          · rename_i q hq
            cases hb
            refine hst.updateActive hst hr hl ha (fun t d hN hs => ⟨noTag_of hnt, hN, hs⟩) fun d' hd' => ?_
            rw [hd] at hd'; cases hd'; exact (push_tag hq).1

theorem zipLoop_inner {f : GData F → GData F → Except Err (List (NArr F) × NArr F)} {a b : Option Tag}
    {tag label : List Char} {P : Nat → GData F → Prop} {s s' : Space F} (h : zipLoop f a b tag label s = .ok s') :
    Inner P s s' := by
  unfold zipLoop at h
  simp only [bind, Except.bind] at h
  split at h
  · cases h
  · refine foldlM_mem (Q := fun r => Inner P s r) ?_ (Inner.refl P s) h
    intro p _ st st' hst hb
    split at hb
    · split at hb
      · cases hb
      · split at hb
        · cases hb
        · cases hb; exact hst.addNew _
    · cases hb; exact hst

/-- The commands on pairs end with two deactivations. -/
theorem pairs_inner {f : GData F → GData F → Except Err (List (NArr F) × NArr F)} {a b tag label : List Char}
    {s s' : Space F} (h : (do
      let s ← zipLoop f (some a) (some b) tag label s
      let s ← s.deactivateAll (some a)
      s.deactivateAll (some b)) = .ok s') :
    Inner (May (fun t d => (Named (some a) t ∨ Named (some b) t) ∧ d.status = true) s) s s' := by
  simp only [bind, Except.bind] at h
  split at h
  · cases h
  · rename_i s1 h1
    split at h
    · cases h
    · rename_i s2 h2
      exact ((zipLoop_inner h1).deactivateAll (fun t d hN hs => ⟨Or.inl hN, hs⟩) h2).deactivateAll
        (fun t d hN hs => ⟨Or.inr hN, hs⟩) h

section
variable [Add F] [Sub F] [Mul F] [Div F] [Zero F] [IntCast F]

theorem energeticsCmd_inner {elc ion field tag label : List Char} {s s' : Space F}
    (h : energeticsCmd elc ion field tag label s = .ok s') :
    Inner (May (fun t d => (Named (some elc) t ∨ Named (some ion) t ∨ Named (some field) t) ∧ d.status = true) s) s s' := by
  unfold energeticsCmd at h
  simp only [bind, Except.bind] at h
  split at h
  · cases h
  · split at h
    · cases h
    · rename_i s1 h1
      split at h
      · cases h
      · rename_i s2 h2
        split at h
        · cases h
        · rename_i s3 h3
          have h0 : Inner (May (fun t d => (Named (some elc) t ∨ Named (some ion) t ∨ Named (some field) t) ∧
              d.status = true) s) s s1 := by
            refine foldlM_mem (Q := fun r => Inner _ s r) ?_ (Inner.refl _ s) h1
            intro p _ st st' hst hb
            unfold energyStep at hb
            split at hb
            · split at hb
              · simp only [bind, Except.bind] at hb
                split at hb
                · cases hb
                · split at hb
                  · cases hb
                  · cases hb; exact hst.addNew _
              · cases hb
            · cases hb; exact hst
          exact ((h0.deactivateAll (fun t d hN hs => ⟨Or.inl hN, hs⟩) h2).deactivateAll
            (fun t d hN hs => ⟨Or.inr (Or.inl hN), hs⟩) h3).deactivateAll (fun t d hN hs => ⟨Or.inr (Or.inr hN), hs⟩) h

omit [Min F] [Max F] [Add F] [Sub F] [Mul F] [Div F] [Zero F] [IntCast F] in
/-- A tag that `tag_iterator` gives names only tags that the option names. -/
theorem named_of_tagIterator {use : Option Tag} (hu : ∀ u, use = some u → u ≠ [] → [] ∉ splitOn ',' u) {s : Space F}
    {oa : Bool} {tags : List Tag} (h : s.tagIterator use oa = .ok tags) {a : Tag} (ha : a ∈ tags) {t : Tag}
    (ht : Named (some a) t) : Named use t := by
  rintro u rfl hne
  cases u with
  | nil => exact absurd rfl hne
  | cons c cs =>
    simp only [tagIterator, Except.ok.injEq] at h
    subst h
    have h1 : a ≠ [] := fun e => hu _ rfl hne (e ▸ ha)
    have h2 := ht a rfl h1
    rw [splitOn_notMem (notMem_of_mem_splitOn ha), List.mem_singleton] at h2
    rw [h2]; exact ha

omit [Add F] [Mul F] [IntCast F] in
theorem relchangeCmd_inner {use : Option Tag} {index : Int} {comp : Option (List Char)} {out : Tag}
    (hu : ∀ u, use = some u → u ≠ [] → [] ∉ splitOn ',' u) {s s' : Space F}
    (h : relchangeCmd use index comp out s = .ok s') :
    Inner (May (fun t d => Named use t ∧ d.status = true) s) s s' := by
  unfold relchangeCmd at h
  simp only [bind, Except.bind] at h
  split at h
  · cases h
  · rename_i tags htags
    refine foldlM_mem (Q := fun r => Inner _ s r) ?_ (Inner.refl _ s) h
    intro a ha st st' hst hb
    unfold relTag at hb
    simp only [bind, Except.bind] at hb
    split at hb
    · cases hb
    · refine iterate_visits id (Q := fun r => Inner _ s r) ?_ hst hb
      intro st r i j st' hst hr hl ha' hb
      have ha' := ha' rfl
      simp only [id] at hst hr hl ha' hb ⊢
      unfold relStep at hb
      split at hb
      · cases hb
      · split at hb
        · rename_i d hd
          split at hb
          · simp only [bind, Except.bind] at hb
            split at hb
            · cases hb
            · split at hb
              · cases hb
              · split at hb
                · cases hb
                · rename_i q hq
                  cases hb
                  refine hst.updateActive hst hr hl ha'
                    (fun t d hN hs => ⟨named_of_tagIterator hu htags ha hN, hs⟩) fun d' hd' => ?_
                  rw [hd] at hd'; cases hd'; exact (push_tag hq).1
          · cases hb
        · cases hb; exact hst

end
end Cmd

namespace Kinetic

theorem pairCmd_inner {F : Type} {f : GData F → GData F → Except Err (GData F)} {dist other : Tag} {tag : Option Tag}
    {s s' : Space F} (h : pairCmd f dist other tag s = .ok s') :
    Inner (May (fun t d => NoTag tag ∧ Named (some dist) t ∧ d.status = true) s) s s' := by
  unfold pairCmd at h
  simp only [bind, Except.bind] at h
  split at h
  · cases h
  · rename_i la hla
    split at h
    · cases h
    · refine foldlM_mem (Q := fun r => Inner _ s r) ?_ (Inner.refl _ s) h
      intro p hp st st' hst hb
      obtain ⟨e, he, hpe⟩ := List.mem_map.1 (List.of_mem_zip hp).1
      obtain ⟨hl, ha⟩ := toList_isListed hla e he
      rw [hpe] at hl ha
      split at hb
      · split at hb
        · cases hb
        · split at hb
          · cases hb; exact hst
          · rename_i hnt
            cases hb
            exact hst.updateActive (Inner.refl _ s) (Inner.refl _ s) hl ha
              (fun t d hN hs => ⟨noTag_of hnt, hN, hs⟩) fun _ _ => rfl
      · cases hb; exact hst

theorem currentCmd_inner {qbym : Bool} {use : Option Tag} {tag label : List Char} {s s' : Space ℝ}
    (h : currentCmd qbym use tag label s = .ok s') :
    Inner (May (fun t d => Named use t ∧ d.status = true) s) s s' := by
  refine iterate_visits id (Q := fun r => Inner _ s r) ?_ (Inner.refl _ s) h
  intro st r i j st' hst hr hl ha hb
  simp only [id] at hst hr hl hb ⊢
  split at hb
  · split at hb
    · simp only [bind, Except.bind] at hb
      split at hb
      · cases hb
      · split at hb
        · cases hb
        · cases hb
          exact (hst.deactivate hr hl fun t d hN hs => ⟨hN, hs⟩).addNew _
    · cases hb
  · cases hb; exact hst

end Kinetic

theorem addAll_inner {F : Type} {P : Nat → GData F → Prop} {s0 s : Space F} (h : Inner P s0 s) (rs : List (GData F)) :
    Inner P s0 (rs.foldl Space.addNew s) :=
  foldl_mem (Q := fun r => Inner P s0 r) (fun _ _ _ hst => hst.addNew _) h

theorem Growth.growthCmd_inner {fit : Fit.Fitter} {o : Growth.Opts} {use : Option Tag} {P : Nat → GData ℝ → Prop} {s s' : Space ℝ}
    (h : Growth.growthCmd fit o use s = .ok s') : Inner P s s' := by
  refine iterate_visits id (Q := fun r => Inner _ s r) ?_ (Inner.refl _ s) h
  intro st r i j st' hst hr hl ha hb
  simp only [id] at hst hr hl hb ⊢
  split at hb
  · cases hb; exact hst
  · rename_i d hd
    cases hs : Growth.sets fit o d with
    | error e => rw [hs] at hb; cases hb
    | ok rs => rw [hs] at hb; cases hb; exact addAll_inner hst rs

namespace V2c

theorem val2coord_inner {F : Type} [Min F] [Max F] {o : Opts} {s s' : Space F} (h : val2coord o s = .ok s') :
    Inner (May (fun t d => Named o.use t ∧ d.status = true) s) s s' := by
  unfold val2coord at h
  simp only [bind, Except.bind] at h
  split at h
  · cases h
  · refine iterate_visits (fun s => s) (Q := fun r => Inner _ s r) ?_ (Inner.refl _ s) h
    intro st r i j st' hst hr hl ha hb
    unfold step at hb
    split at hb
    · cases hb; exact hst
    · simp only [bind, Except.bind] at hb
      split at hb
      · cases hb
      · cases hb
        exact (addAll_inner hst _).deactivate hr hl fun t d hN hs => ⟨hN, hs⟩

end V2c

namespace Cli
variable {F : Type}

theorem setUniqueLabels_inner {may : Tag → GData F → Prop} (hm : ∀ t d, d.status = true → may t d) {s0 s s' : Space F}
    (h0 : Inner (May may s0) s0 s) (h : setUniqueLabels s = .ok s') : Inner (May may s0) s0 s' := by
  unfold setUniqueLabels at h
  simp only [bind, Except.bind] at h
  split at h
  · cases h
  · rename_i items hit
    split at h
    · cases h
    · cases h
      refine foldl_mem (Q := fun r => Inner (May may s0) s0 r) ?_ h0
      intro e he st hst
      obtain ⟨hl, ha⟩ := toList_isListed hit e.1 (List.of_mem_zip he).1
      exact hst.updateActive h0 h0 hl ha (fun t d _ hs => hm t d hs) fun _ _ => rfl

theorem load_inner [Add F] [Sub F] [Mul F] [Div F] [Neg F] [Zero F] [One F] [IntCast F] [NatCast F] [Min F] [Max F]
    {glob : Str → List Str} {make : Used → Str → Str → Except Err (GData F)} {glo : Given} {strs : List Str} {loc : Given}
    {fv : Bool} {n : Nat} {s s' : Space F} (h : (load glob make glo strs loc fv ⟨s, n⟩).map Session.data = .ok s') :
    Inner (May (fun _ d => d.status = true) s) s s' := by
  unfold load at h
  split at h
  · cases h
  · simp only [bind, Except.bind] at h
    split at h
    · cases h
    · rename_i s1 h1
      cases h2 : setUniqueLabels s1 with
      | error e => rw [h2] at h; cases h
      | ok s2 =>
          rw [h2] at h
          cases h
          refine setUniqueLabels_inner (fun _ _ hs => hs) ?_ h2
          refine foldlM_mem (Q := fun r => Inner _ s r) ?_ (Inner.refl _ s) h1
          intro q _ st st' hst hb
          unfold loadOne nameErrorFails at hb
          simp only [bind, Except.bind, pure, Except.pure] at hb
          split at hb
          · cases hb
          · split at hb
            · cases hb
            · split at hb
              · cases hb
              · cases hb; exact hst.addNew _

end Cli

theorem Gk.gkDistf_inner {F : Type} [Add F] [Sub F] [Mul F] [Div F] [Neg F] [Zero F] [One F] [IntCast F] [NatCast F] [Min F]
    [Max F] {load : Gk.Str → Option Gk.Str → Except Err (GData F)} {glob : Gk.Str → List Gk.Str} {spec : Gk.Str}
    {a : Gk.DistfArgs} {vel mc2nu mapc2p : Option Gk.Str} {s s' : Space F}
    (h : Gk.gkDistf load glob spec a vel mc2nu mapc2p s = .ok s') : Inner (May (fun _ d => d.status = true) s) s s' := by
  unfold Gk.gkDistf at h
  simp only [bind, Except.bind] at h
  split at h
  · cases h
  · split at h
    · cases h
    · rename_i s1 h1
      have h0 : Inner (May (fun _ d => d.status = true) s) s s1 := by
        refine foldlM_mem (Q := fun r => Inner _ s r) ?_ (Inner.refl _ s) h1
        intro q _ st st' hst hb
        split at hb
        · cases hb
        · cases hb; exact hst.addNew _
      split at h
      · exact Cli.setUniqueLabels_inner (fun _ _ hs => hs) h0 h
      · cases h; exact h0

namespace Multi
variable {F : Type} [_root_.Field F] [LinearOrder F]

theorem selectBlocks_inner {pf : List Char → Option F} {o : Opts} {fuel : Nat} {s s' : Space F}
    (h : selectBlocks pf o fuel s = .ok s') : Inner (May (fun t d => Named o.use t ∧ d.status = true) s) s s' := by
  unfold selectBlocks at h
  simp only [bind, Except.bind] at h
  split at h
  · cases h
  · split at h
    · cases h
    · rename_i items hit
      split at h
      · cases h
      · rename_i st hst
        cases h
        refine foldlM_mem (Q := fun r : State F => Inner _ s r.s) ?_ (Inner.refl _ s) hst
        intro ids hids r r' hr hb
        unfold frameStep at hb
        simp only [bind, Except.bind] at hb
        split at hb
        · cases hb
        · split at hb
          · cases hb
          · cases hb
            refine Inner.addNew ?_ _
            refine foldl_mem (Q := fun r : Space F => Inner _ s r) ?_ hr
            intro i hi q hq
            have hmem : i ∈ items.map (·.2) := by
              split at hids
              · obtain ⟨n, -, rfl⟩ := List.mem_map.1 hids
                exact (List.mem_filter.1 hi).1
              · rw [List.mem_singleton] at hids
                exact hids ▸ hi
            obtain ⟨e, he, rfl⟩ := List.mem_map.1 hmem
            exact hq.deactivate (Inner.refl _ s) (toList_isListed hit e he).1 fun t d hN hs => ⟨hN, hs⟩

end Multi

namespace Collect
variable {F : Type} [_root_.Field F] [LinearOrder F]

theorem collectCmd_inner {timeOf : GData F → Option F} {frameOf : GData F → Option Int} {argsort : List F → List Nat}
    {fmod : F → F → F} {o : Opts F} (hu : ∀ u, o.use = some u → u ≠ [] → [] ∉ splitOn ',' u) {s s' : Space F}
    (h : collectCmd timeOf frameOf argsort fmod o s = .ok s') :
    Inner (May (fun t d => Named o.use t ∧ d.status = true) s) s s' := by
  unfold collectCmd at h
  simp only [bind, Except.bind] at h
  split at h
  · cases h
  · rename_i tags htags
    refine foldlM_mem (Q := fun r => Inner _ s r) ?_ (Inner.refl _ s) h
    intro a ha st st' hst hb
    have ha : a.1 ∈ tags := by
      obtain ⟨-, -, hm⟩ := List.mem_zipIdx ha
      exact hm ▸ List.getElem_mem _
    unfold collectTag at hb
    simp only [bind, Except.bind] at hb
    split at hb
    · cases hb
    · split at hb
      · cases hb
      · split at hb
        · cases hb
        · rename_i s1 h1
          split at hb
          · cases hb
          · have h2 := hst.deactivateAll (fun t d hN hs => ⟨Cmd.named_of_tagIterator hu htags ha hN, hs⟩) h1
            refine foldlM_mem (Q := fun r => Inner _ s r) ?_ h2 hb
            intro c _ st st' hst hb
            split at hb
            · cases hb
            · cases hb; exact hst.addNew _

end Collect

namespace Ev
variable {F : Type} [_root_.Field F] [LinearOrder F]

omit [_root_.Field F] in
theorem pushItem_tag {d r : GData F} {i : Item F} (h : pushItem d i = .ok r) : r.tag = d.tag := by
  unfold pushItem at h
  split at h
  · split at h
    · exact (Cmd.push_tag h).1
    · simp only [bind, Except.bind] at h
      split at h
      · cases h
      · rename_i v hv
        have : v.tag = d.tag := by
          unfold GData.setValues at hv
          split at hv
          · cases hv
          · cases hv; rfl
        split at h
        · cases h; exact this
        · cases h
  · cases h

omit [_root_.Field F] in
theorem adds_inner {P : Nat → GData F → Prop} {tag label : List Char} {top : List (Item F)} {s0 s s' : Space F}
    (h0 : Inner P s0 s) (h : top.foldlM (addStep tag label) s = .ok s') : Inner P s0 s' := by
  refine foldlM_mem (Q := fun r => Inner P s0 r) ?_ h0 h
  intro i _ st st' hst hb
  unfold addStep at hb
  simp only [bind, Except.bind] at hb
  split at hb
  · cases hb
  · cases hb; exact hst.addNew _

theorem ev_inner {lib : Lib F} {chain : List Char} {tag label : Option (List Char)} {all : Bool} {s s' : Space F}
    (h : ev lib chain tag label all s = .ok s') :
    Inner (May (fun _ d => all = true ∨ d.status = true) s) s s' := by
  unfold ev at h
  simp only [bind, Except.bind] at h
  split at h
  · cases h
  · split at h
    · cases h
    · split at h
      · cases h
      · split at h
        · cases h
        · split at h
          · split at h
            · cases h
            · rename_i sc hsc
              cases h
              refine iterate_visits (σ := Space F × Nat) Prod.fst (Q := fun r => Inner _ s r.1) ?_ (Inner.refl _ s) hsc
              intro st r i j st' hst hr hl ha hb
              unfold replaceStep at hb
              split at hb
              · rename_i d hi hd
                split at hb
                · rename_i d' hd'
                  cases hb
                  refine hst.update (fun q hq => ?_) fun q hq => ?_
                  · rw [hd] at hq; cases hq; exact pushItem_tag hd'
                  · cases all with
                    | false => exact Or.inl (hst.allowed hr hl (ha rfl) (fun t d _ hs => Or.inr hs) hq)
                    | true =>
                      obtain ⟨t, l, -, hl, hi⟩ := hl
                      obtain ⟨l0, h0, hi0⟩ := hr.listed hl hi (List.getElem?_eq_some_iff.1 hq).1
                      exact Or.inl ⟨t, l0, h0, hi0, Or.inl rfl⟩
                · cases hb
              · cases hb
          · split at h
            · exact adds_inner (Inner.refl _ s) h
            · split at h
              · cases h
              · rename_i s1 h1
                exact adds_inner ((Inner.refl _ s).deactivateAll (fun t d _ hs => Or.inr hs) h1) h
            · cases h

theorem evTag_inner {lib : Lib F} {chain : List Char} {c : Char} {cs : List Char} {label : Option (List Char)} {all : Bool}
    {P : Nat → GData F → Prop} {s s' : Space F} (h : ev lib chain (some (c :: cs)) label all s = .ok s') : Inner P s s' := by
  unfold ev at h
  simp only [bind, Except.bind] at h
  split at h
  · cases h
  · split at h
    · cases h
    · split at h
      · cases h
      · split at h
        · cases h
        · split at h
          · rename_i hc; exact absurd hc.2 (by simp)
          · exact adds_inner (Inner.refl _ s) h

end Ev

namespace Space
variable {F : Type}

theorem activates_inner {tag : Option Tag} {sel : Sel} {s0 s s' : Space F} (h0 : Inner (May (fun _ _ => True) s0) s0 s)
    (h : iterate id tag false false sel (fun s _ i => .ok (s.update i GData.activate)) s = .ok s') :
    Inner (May (fun _ _ => True) s0) s0 s' := by
  refine iterate_visits id (Q := fun r => Inner _ s0 r) ?_ h0 h
  intro st r i j st' hst hr hl ha hb
  simp only [id] at hst hr hl hb ⊢
  cases hb
  refine hst.update (fun _ _ => rfl) fun q hq => ?_
  obtain ⟨t, l, -, hl, hi⟩ := hl
  obtain ⟨l0, h0, hi0⟩ := hr.listed hl hi (List.getElem?_eq_some_iff.1 hq).1
  exact Or.inl ⟨t, l0, h0, hi0, trivial⟩

theorem deactivates_inner {tag : Option Tag} {sel : Sel} {s0 s s' : Space F}
    (h0 : Inner (May (fun _ d => d.status = true) s0) s0 s)
    (h : iterate id tag false false sel (fun s _ i => .ok (s.update i GData.deactivate)) s = .ok s') :
    Inner (May (fun _ d => d.status = true) s0) s0 s' := by
  refine iterate_visits id (Q := fun r => Inner _ s0 r) ?_ h0 h
  intro st r i j st' hst hr hl ha hb
  simp only [id] at hst hr hl hb ⊢
  cases hb
  exact hst.deactivate hr hl fun _ _ _ hs => hs

theorem activateCmd_inner {tag : Option Tag} {index : Option (List Char)} {focused : Bool} {s s' : Space F}
    (h : s.activateCmd tag index focused = .ok s') : Inner (May (fun _ _ => True) s) s s' := by
  cases focused with
  | true => exact activates_inner (Inner.refl _ s) h
  | false =>
    simp only [activateCmd, Bool.false_eq_true, if_false, bind, Except.bind] at h
    split at h
    · cases h
    · rename_i s1 h1
      exact activates_inner ((Inner.refl _ s).deactivateAll (fun _ _ _ _ => trivial) h1) h

theorem deactivateCmd_inner {tag : Option Tag} {index : Option (List Char)} {focused : Bool} {s s' : Space F}
    (h : s.deactivateCmd tag index focused = .ok s') : Inner (May (fun _ d => d.status = true) s) s s' := by
  cases focused with
  | false => exact deactivates_inner (Inner.refl _ s) h
  | true =>
    simp only [deactivateCmd, if_true, bind, Except.bind] at h
    split at h
    · cases h
    · rename_i s1 h1
      exact deactivates_inner ((Inner.refl _ s).deactivateAll (fun _ _ _ hs => hs) h1) h

end Space
end Pgkyl
