import Verif.Model.PlotCmd
import Verif.Spec.PlotCmd
import Verif.Spec.Idx
import Verif.Lemmas.Text
import Verif.Lemmas.Py
import Verif.Lemmas.Idx
import Verif.Lemmas.StoreCmd
import Verif.Props.DataSpace
/-! # C119: legend labels and saved pictures of the plot command -/

namespace Pgkyl
open Spec PlotCmd Space

/-! ## Dictionaries and figures -/

section dict
variable {κ ν : Type} [DecidableEq κ]

theorem PlotCmd.find?_put_self (k : κ) (v : ν) (l : List (κ × ν)) : find? k (put k v l) = some v := by
  induction l with
  | nil => simp [put, find?]
  | cons e es ih =>
    rw [put]
    split
    · simp [find?]
    · rename_i h; rw [find?, if_neg h, ih]

theorem PlotCmd.put_new {k : κ} {v : ν} {l : List (κ × ν)} (h : find? k l = none) : put k v l = l ++ [(k, v)] := by
  induction l with
  | nil => rfl
  | cons e es ih =>
    rw [find?] at h
    split at h
    · cases h
    · rename_i hne; rw [put, if_neg hne, ih h]; rfl

theorem PlotCmd.find?_none {k : κ} {l : List (κ × ν)} : find? k l = none ↔ k ∉ l.map Prod.fst := by
  induction l with
  | nil => simp [find?]
  | cons e es ih =>
    rw [find?]
    split
    · rename_i h; simp [h]
    · rename_i h
      rw [ih, List.map_cons, List.mem_cons]
      constructor
      · intro h1 h2
        rcases h2 with h2 | h2
        · exact h h2.symm
        · exact h1 h2
      · intro h1 h2; exact h1 (Or.inr h2)

theorem PlotCmd.put_put (k : κ) (v w : ν) (l : List (κ × ν)) : put k w (put k v l) = put k w l := by
  induction l with
  | nil => simp [put]
  | cons e es ih =>
    by_cases h : e.1 = k
    · simp [put, h]
    · simp [put, h, ih]

end dict

theorem PlotCmd.nextNumber_none (figs : List (Int × List Drawing)) : find? (nextNumber figs) figs = none := by
  rw [PlotCmd.find?_none]
  cases figs with
  | nil => simp
  | cons f fs =>
    have key : ∀ (gs : List (Int × List Drawing)) (a : Int), a ≤ gs.foldl (fun m g => max m g.1) a ∧
        ∀ g ∈ gs, g.1 ≤ gs.foldl (fun m g => max m g.1) a := by
      intro gs
      induction gs with
      | nil => intro a; simp
      | cons g gs ih =>
        intro a
        obtain ⟨h1, h2⟩ := ih (max a g.1)
        rw [List.foldl_cons]
        refine ⟨by omega, fun x hx => ?_⟩
        rcases List.mem_cons.1 hx with rfl | hx
        · omega
        · exact h2 x hx
    obtain ⟨h1, h2⟩ := key fs f.1
    intro hm
    rw [nextNumber, List.map_cons, List.mem_cons] at hm
    rcases hm with hm | hm
    · omega
    · obtain ⟨g, hg, he⟩ := List.mem_map.1 hm
      have := h2 g hg
      omega

/-! ## Labels and names -/

theorem PlotCmd.labelFor_eq {o : Opts} {names : List Text} (h : LegendNames o.legend names) (n i : Nat) (own : Text) :
    labelFor o n i own = legendLabel names (decide (1 < n) || o.forceLegend) i own := by
  have hshow : (if 1 < n ∨ o.forceLegend = true then own else []) =
      if (decide (1 < n) || o.forceLegend) = true then own else [] := by
    congr 1
    simp
  rcases h with ⟨h1, h2⟩ | ⟨hne, parts, h1, h2, h3⟩
  · have : legendLabels o = none := by simp [legendLabels, h1]
    simp only [labelFor, this, h2, legendLabel, List.getD_nil, Option.bind_none]
    exact hshow
  · have hparts : parts ≠ [] := by rintro rfl; exact hne (by simpa using h2)
    have hnil : joinWith ',' (parts.map fun p => p.1 ++ p.2.1 ++ p.2.2) ≠ [] := by
      cases parts with
      | nil => exact absurd rfl hparts
      | cons p ps =>
        have hp := (h3 p (by simp)).2.2.2.1
        cases ps with
        | nil => simp [joinWith, hp]
        | cons q qs => simp [joinWith]
    have hcomma : ∀ c, Blanks c → ',' ∉ c := by
      intro c hc hm
      rcases hc _ hm with h | h <;> exact absurd h (by decide)
    have hblank : ∀ c : List Char, Blanks c → ∀ x ∈ c, Text.isBlank x = true := by
      intro c hc x hx
      rcases hc x hx with rfl | rfl <;> decide
    have hsplit : splitOn ',' (joinWith ',' (parts.map fun p => p.1 ++ p.2.1 ++ p.2.2)) =
        parts.map fun p => p.1 ++ p.2.1 ++ p.2.2 := by
      refine splitOn_joinWith _ (by simpa using hparts) ?_
      intro t ht
      obtain ⟨p, hp, rfl⟩ := List.mem_map.1 ht
      obtain ⟨b1, b2, -, -, b5⟩ := h3 p hp
      simp only [List.mem_append, not_or]
      exact ⟨⟨hcomma _ b1, b5⟩, hcomma _ b2⟩
    have hlabels : legendLabels o = some names := by
      obtain ⟨c, cs, hcs⟩ := List.exists_cons_of_ne_nil hnil
      rw [hcs] at h1 hsplit
      simp only [legendLabels, h1, hsplit, h2, List.map_map]
      congr 1
      refine List.map_congr_left fun p hp => ?_
      obtain ⟨b1, b2, b3, -, -⟩ := h3 p hp
      exact Text.strip_word (hblank _ b1) (hblank _ b2) b3.2.1 b3.2.2
    simp only [labelFor, hlabels, Option.bind_some, legendLabel, List.getD_eq_getElem?_getD]
    cases hi : names[i]? with
    | some l => rfl
    | none => exact hshow

theorem PlotCmd.stem_eq {file t : Text} (h : StemOfFile file t) : ∃ f fs, file = f :: fs ∧ (splitOn '.' (f :: fs)).headD [] = t := by
  obtain ⟨h1, h2, h3⟩ := h
  obtain ⟨c, cs, rfl⟩ := List.exists_cons_of_ne_nil h1
  rcases h3 with rfl | ⟨r, rfl⟩
  · exact ⟨c, cs, rfl, by rw [splitOn_notMem h2]; rfl⟩
  · exact ⟨c, cs ++ '.' :: r, rfl, by
      have := splitOn_append (t := r) h2
      rw [List.cons_append] at this
      rw [this]; rfl⟩

theorem PlotCmd.frameName_inj {p : Text} {a b : Nat} (h : frameName p a = frameName p b) : a = b := by
  simp only [frameName] at h
  have h3 := List.append_cancel_right h
  have h4 := List.append_cancel_left h3
  have h5 : Nat.toDigits 10 a = Nat.toDigits 10 b := by simpa using h4
  rw [← natOfDigits_toDigits a, ← natOfDigits_toDigits b, h5]

/-! ## The loop -/

section loop
variable {F : Type}

/-- The label of its own, and the file, of an object. -/
def ownLabel (s : Space F) (id : Nat) : Text := ((s.heap[id]?).map GData.getLabel).getD []
/-- The label of its own, and the file, of an object. -/
def fileOf (s : Space F) (id : Nat) : Text := ((s.heap[id]?).map GData.fileName).getD []

/-- The number of active datasets. -/
def numActive (s : Space F) : Nat :=
  ((s.dict.map Prod.fst).flatMap fun t => visit s.active true ((s.lookup t).getD [])).length

theorem PlotCmd.plotCmd_eq (o : Opts) {s : Space F} (hr : Reachable s) {use : Option Tag} {ts : List Tag}
    (hts : Requests s use ts) (ls : Tag → List Nat) (hl : ∀ t ∈ ts, s.lookup t = some (ls t)) {w : Where}
    (hw : whereTo o = .ok w) :
    plotCmd o use s = (do
      let st ← (ts.flatMap fun t => visit s.active true (ls t)).foldlM (fun st (e : Nat × Nat) =>
        plotOne o w (numActive s) e.1 e.2 (ownLabel s e.2) (fileOf s e.2) st) ({} : State)
      return finish o st) := by
  have hi := Space.reachable_inv hr
  have hto := C16_iterate_all hts ls hl true true
  have hlt := Space.toList_none_lt hi hto
  have hit := Space.iterate_ok (σ := State) (fun _ => s) use true true .none
    (plotBody o w (numActive s) s) {} hi (fun _ => True) trivial (fun _ _ _ _ _ _ => trivial) (fun _ _ _ _ _ => rfl)
    (fun _ _ _ _ => rfl) hto
  have hnum : s.getNumDatasets none true = .ok (numActive s) := by
    rw [Space.getNumDatasets_eq hi (Space.toList_none (Space.tagsOf_none_lookup s) false true)]
    rfl
  simp only [plotCmd, hw, hnum, bind, Except.bind, pure, Except.pure]
  rw [hit]
  generalize (ts.flatMap fun t => visit s.active true (ls t)) = items at hlt
  have : ∀ (items : List (Nat × Nat)) (st : State), (∀ e ∈ items, e.2 < s.heap.length) →
      items.foldlM (fun st e => plotBody o w (numActive s) s st e.1 e.2) st =
        items.foldlM (fun st (e : Nat × Nat) => plotOne o w (numActive s) e.1 e.2 (ownLabel s e.2) (fileOf s e.2) st) st := by
    intro items
    induction items with
    | nil => intro _ _; rfl
    | cons e es ih =>
      intro st h
      have hget := List.getElem?_eq_getElem (h e (by simp))
      rw [List.foldlM_cons, List.foldlM_cons]
      have : plotBody o w (numActive s) s st e.1 e.2 =
          plotOne o w (numActive s) e.1 e.2 (ownLabel s e.2) (fileOf s e.2) st := by
        simp only [plotBody, hget, ownLabel, fileOf, Option.map_some, Option.getD_some]
      rw [this]
      congr 1
      funext st'
      exact ih st' fun x hx => h x (by simp [hx])
  rw [this items {} hlt]

theorem PlotCmd.visit_nodup_fst (f : Nat → Bool) (b : Bool) (l : List Nat) : ((visit f b l).map Prod.fst).Nodup := by
  unfold visit
  rw [List.map_map]
  have : (Prod.fst ∘ fun e : Nat × Nat => (e.2, e.1)) = Prod.snd := rfl
  rw [this]
  refine List.Nodup.sublist (List.Sublist.map _ List.filter_sublist) ?_
  rw [List.zipIdx_map_snd]
  exact List.nodup_range'

/-- C119 for `--saveframes p`: every active dataset is drawn on its own and saved in the file `p_i.png`, where `i` is its
number in its tag, and no other file is written.  Partial: the datasets must be in one tag, see `C119_tags_fails`. -/
theorem C119_frames_partial {o : Opts} {p : Text} (hp : p ≠ []) (h1 : o.saveframes = some p) (h2 : o.save = false)
    (h3 : o.saveas = none) (h4 : o.batch = none) (h5 : o.figure = none) (h6 : o.subplots = false)
    (h7 : o.multiblock = false) {names : List Text} (hn : LegendNames o.legend names) {s : Space F} (hr : Reachable s)
    {use : Option Tag} {t : Tag} (hts : Requests s use [t]) {l : List Nat} (hl : s.lookup t = some l) :
    ∃ st, plotCmd o use s = .ok st ∧ st.files = (visit s.active true l).map fun e =>
      (p ++ "_".toList ++ dec e.1 ++ ".png".toList,
        [(e.2, legendLabel names (decide (1 < numActive s) || o.forceLegend) e.1 (ownLabel s e.2))]) := by
  have hw : whereTo o = .ok .fresh := by simp [whereTo, h5, h6, h7]
  have hs : saving o = false := by simp [saving, h2, h3]
  have hpre : framePrefix o = some p := by simp [framePrefix, h1, Option.filter, hp]
  rw [PlotCmd.plotCmd_eq o hr hts (fun _ => l) (by simpa using hl) hw]
  simp only [List.flatMap_cons, List.flatMap_nil, List.append_nil]
  have key : ∀ (items : List (Nat × Nat)) (st : State), (items.map Prod.fst).Nodup →
      (∀ e ∈ items, find? (frameName p e.1) st.files = none) →
      ∃ st', items.foldlM (fun st (e : Nat × Nat) => plotOne o .fresh (numActive s) e.1 e.2 (ownLabel s e.2)
          (fileOf s e.2) st) st = Except.ok (ε := Err) st' ∧ st'.files = st.files ++ items.map fun e =>
        (frameName p e.1, [(e.2, legendLabel names (decide (1 < numActive s) || o.forceLegend) e.1 (ownLabel s e.2))]) := by
    intro items
    induction items with
    | nil => intro st _ _; exact ⟨st, rfl, by simp⟩
    | cons e es ih =>
      intro st hnd hnone
      rw [List.map_cons, List.nodup_cons] at hnd
      obtain ⟨st1, hst1, hf1⟩ : ∃ st1, plotOne o .fresh (numActive s) e.1 e.2 (ownLabel s e.2) (fileOf s e.2) st = .ok st1 ∧
          st1.files = st.files ++ [(frameName p e.1,
            [(e.2, legendLabel names (decide (1 < numActive s) || o.forceLegend) e.1 (ownLabel s e.2))])] := by
        refine ⟨_, by simp only [plotOne, saveOne, hs, bind, Except.bind, pure, Except.pure, Bool.false_eq_true, if_false];
                      rfl, ?_⟩
        simp only [hpre, h4, saveFrame, savefig, draw, figureFor, PlotCmd.nextNumber_none, Option.getD_none,
          List.nil_append, Option.bind_some, PlotCmd.find?_put_self, Option.getD_some, PlotCmd.labelFor_eq hn]
        rw [PlotCmd.put_new (hnone e (by simp))]
      obtain ⟨st2, h21, h22⟩ := ih st1 hnd.2 (by
        intro x hx
        rw [hf1, PlotCmd.find?_none, List.map_append, List.mem_append, not_or]
        refine ⟨PlotCmd.find?_none.1 (hnone x (by simp [hx])), ?_⟩
        simp only [List.map_cons, List.map_nil, List.mem_singleton]
        intro h
        have := PlotCmd.frameName_inj h
        exact hnd.1 (this ▸ List.mem_map_of_mem hx))
      refine ⟨st2, ?_, by rw [h22, hf1]; simp⟩
      rw [List.foldlM_cons, hst1]
      exact h21
  obtain ⟨st', h8, h9⟩ := key (visit s.active true l) {} (PlotCmd.visit_nodup_fst _ _ _) (fun _ _ => rfl)
  refine ⟨st', ?_, ?_⟩
  · rw [h8]
    simp [bind, Except.bind, pure, Except.pure, finish, hs]
  · rw [h9]
    simp only [List.nil_append]
    refine List.map_congr_left fun e _ => ?_
    have : frameName p e.1 = p ++ "_".toList ++ dec e.1 ++ ".png".toList := by
      show p ++ '_' :: Nat.toDigits 10 e.1 ++ ".png".toList = _
      have e1 : "_".toList = ['_'] := by decide
      rw [e1]
      simp [dec]
    rw [this]

/-- C119 for `--save`: every active dataset is drawn on its own and saved under the name of its file up to the first dot.
Partial: all datasets must come from files, and the names must be different (and not empty); and one more picture, of the
last dataset, is written under the empty name. -/
theorem C119_save_partial {o : Opts} (h1 : o.saveframes = none) (h2 : o.save = true)
    (h3 : o.saveas = none) (h4 : o.batch = none) (h5 : o.figure = none) (h6 : o.subplots = false)
    (h7 : o.multiblock = false) {names : List Text} (hn : LegendNames o.legend names) {s : Space F} (hr : Reachable s)
    {use : Option Tag} {ts : List Tag} (hts : Requests s use ts) (ls : Tag → List Nat)
    (hl : ∀ t ∈ ts, s.lookup t = some (ls t)) {items : List (Nat × Nat)}
    (hit : items = ts.flatMap fun t => visit s.active true (ls t)) (hne : items ≠ []) (stem : Nat → Text)
    (hst : ∀ e ∈ items, StemOfFile (fileOf s e.2) (stem e.2)) (hnd : (items.map fun e => stem e.2).Nodup) :
    ∃ st, plotCmd o use s = .ok st ∧
      st.files = (items.map fun e => (stem e.2,
          [(e.2, legendLabel names (decide (1 < numActive s) || o.forceLegend) e.1 (ownLabel s e.2))])) ++
        [([], [((items.getLast hne).2, legendLabel names (decide (1 < numActive s) || o.forceLegend) (items.getLast hne).1
          (ownLabel s (items.getLast hne).2))])] := by
  have hw : whereTo o = .ok .fresh := by simp [whereTo, h5, h6, h7]
  have hs : saving o = true := by simp [saving, h2]
  have hpre : framePrefix o = none := by simp [framePrefix, h1]
  rw [PlotCmd.plotCmd_eq o hr hts ls hl hw, ← hit]
  have key : ∀ (items : List (Nat × Nat)) (st : State), (items.map fun e => stem e.2).Nodup →
      (∀ e ∈ items, StemOfFile (fileOf s e.2) (stem e.2)) → st.name = [] →
      (∀ e ∈ items, find? (stem e.2) st.files = none) →
      ∃ st', items.foldlM (fun st (e : Nat × Nat) => plotOne o .fresh (numActive s) e.1 e.2 (ownLabel s e.2)
          (fileOf s e.2) st) st = Except.ok (ε := Err) st' ∧ st'.name = [] ∧
        st'.files = st.files ++ (items.map fun e =>
        (stem e.2, [(e.2, legendLabel names (decide (1 < numActive s) || o.forceLegend) e.1 (ownLabel s e.2))])) ∧
        ((st'.current.bind fun n => find? n st'.figs) = if h : items ≠ [] then some [((items.getLast h).2,
          legendLabel names (decide (1 < numActive s) || o.forceLegend) (items.getLast h).1
          (ownLabel s (items.getLast h).2))] else st.current.bind fun n => find? n st.figs) := by
    intro items
    induction items with
    | nil => intro st _ _ hname _; exact ⟨st, rfl, hname, by simp, by simp⟩
    | cons e es ih =>
      intro st hnd hstem hname hnone
      rw [List.map_cons, List.nodup_cons] at hnd
      obtain ⟨f, fs, hf, hsp⟩ := PlotCmd.stem_eq (hstem e (by simp))
      have hnext : ∀ st : State, st.name = [] → nextName o st.name (fileOf s e.2) = .ok (stem e.2) := by
        intro st h
        simp only [nextName, h3, h, hf, hsp]
        simp
      obtain ⟨st1, hst1, hname1, hf1, hc1⟩ : ∃ st1, plotOne o .fresh (numActive s) e.1 e.2 (ownLabel s e.2) (fileOf s e.2) st =
            .ok st1 ∧ st1.name = [] ∧
          st1.files = st.files ++ [(stem e.2,
            [(e.2, legendLabel names (decide (1 < numActive s) || o.forceLegend) e.1 (ownLabel s e.2))])] ∧
          (st1.current.bind fun n => find? n st1.figs) =
            some [(e.2, legendLabel names (decide (1 < numActive s) || o.forceLegend) e.1 (ownLabel s e.2))] := by
        have hd := hnext (draw (figureFor .fresh e.1 st.figs) (e.2, labelFor o (numActive s) e.1 (ownLabel s e.2)) st)
          (by rw [draw]; exact hname)
        refine ⟨_, by
          simp only [plotOne, saveOne, hs, hd, bind, Except.bind, pure, Except.pure, if_true, decide_true]
          rfl, ?_, ?_, ?_⟩
        · simp only [hpre, h4, saveFrame, savefig]
        · simp only [hpre, h4, saveFrame, savefig, draw, figureFor, PlotCmd.nextNumber_none, Option.getD_none,
            List.nil_append, Option.bind_some, PlotCmd.find?_put_self, Option.getD_some, PlotCmd.labelFor_eq hn]
          rw [PlotCmd.put_new (hnone e (by simp))]
        · simp only [hpre, h4, saveFrame, savefig, draw, figureFor, PlotCmd.nextNumber_none, Option.getD_none,
            List.nil_append, Option.bind_some, PlotCmd.find?_put_self, PlotCmd.labelFor_eq hn]
      obtain ⟨st2, h21, h22, h23, h24⟩ := ih st1 hnd.2 (fun x hx => hstem x (by simp [hx])) hname1 (by
        intro x hx
        rw [hf1, PlotCmd.find?_none, List.map_append, List.mem_append, not_or]
        refine ⟨PlotCmd.find?_none.1 (hnone x (by simp [hx])), ?_⟩
        simp only [List.map_cons, List.map_nil, List.mem_singleton]
        intro h
        exact hnd.1 (List.mem_map.2 ⟨x, hx, h⟩))
      refine ⟨st2, ?_, h22, by rw [h23, hf1]; simp, ?_⟩
      · rw [List.foldlM_cons, hst1]
        exact h21
      · rw [h24]
        by_cases hes : es = []
        · subst hes
          simp [hc1]
        · rw [dif_pos hes, dif_pos (by simp)]
          rw [List.getLast_cons hes]
  obtain ⟨st', h8, h9, h10, h11⟩ := key items {} hnd hst rfl (fun _ _ => rfl)
  refine ⟨finish o st', ?_, ?_⟩
  · rw [h8]; rfl
  · rw [dif_pos hne] at h11
    simp only [finish, hs, if_true, savefig, h9, h11, Option.getD_some]
    rw [PlotCmd.put_new, h10, List.nil_append]
    rw [PlotCmd.find?_none, h10, List.nil_append, List.map_map]
    intro hm
    obtain ⟨e, he, h⟩ := List.mem_map.1 hm
    exact (hst e he).1 h

theorem PlotCmd.whereTo_number {o : Opts} (h7 : o.multiblock = false)
    (h5 : (∃ n : Nat, o.figure = some (dec n)) ∨ (o.figure = none ∧ o.subplots = true)) :
    ∃ n, whereTo o = .ok (.number n) := by
  rcases h5 with ⟨n, h5⟩ | ⟨h5, h6⟩
  · refine ⟨n, ?_⟩
    obtain ⟨c, cs, hcs⟩ := List.exists_cons_of_ne_nil (dec_ne_nil n)
    have hdig : isDig c = true := by
      have := toDigits_all_isDig n
      exact List.all_eq_true.1 this c (by show c ∈ dec n; rw [hcs]; simp)
    have hne1 : ∀ t : Text, t.head? ≠ some c → dec n ≠ t := by
      rintro t ht rfl
      rw [hcs] at ht
      exact ht rfl
    have hd : ∀ x : Char, isDig x = false → ∀ t : Text, t.head? = some x → t.head? ≠ some c := by
      intro x hx t h1 h2
      rw [h1] at h2
      rw [Option.some.inj h2, hdig] at hx
      exact absurd hx (by decide)
    simp only [whereTo, h7, h5, Bool.false_eq_true, if_false]
    rw [if_neg, pyInt_dec]
    simp only [not_or]
    exact ⟨hne1 _ (hd 'd' (by decide) _ (by decide)), hne1 _ (hd 's' (by decide) _ (by decide)),
      hne1 _ (hd 's' (by decide) _ (by decide))⟩
  · exact ⟨0, by simp [whereTo, h5, h6, h7]⟩

/-- C119 for `--saveas f` into one figure (`--figure n` or `--subplots`): all the active datasets are drawn into it, in
order, and it is saved once, in the file `f`. -/
theorem C119_saveas {o : Opts} {f : Text} (hf : f ≠ []) (h1 : o.saveframes = none) (h3 : o.saveas = some f)
    (h4 : o.batch = none) (h7 : o.multiblock = false)
    (h5 : (∃ n : Nat, o.figure = some (dec n)) ∨ (o.figure = none ∧ o.subplots = true))
    {names : List Text} (hn : LegendNames o.legend names) {s : Space F} (hr : Reachable s)
    {use : Option Tag} {ts : List Tag} (hts : Requests s use ts) (ls : Tag → List Nat)
    (hl : ∀ t ∈ ts, s.lookup t = some (ls t)) {items : List (Nat × Nat)}
    (hit : items = ts.flatMap fun t => visit s.active true (ls t)) (hne : items ≠ []) :
    ∃ st, plotCmd o use s = .ok st ∧
      st.files = [(f, items.map fun e =>
          (e.2, legendLabel names (decide (1 < numActive s) || o.forceLegend) e.1 (ownLabel s e.2)))] := by
  obtain ⟨n, hw⟩ := PlotCmd.whereTo_number h7 h5
  obtain ⟨c, cs, rfl⟩ := List.exists_cons_of_ne_nil hf
  have hs : saving o = true := by simp [saving, h3]
  have hpre : framePrefix o = none := by simp [framePrefix, h1]
  have hdec : decide (Where.number n = Where.fresh) = false := by simp
  rw [PlotCmd.plotCmd_eq o hr hts ls hl hw, ← hit]
  have key : ∀ (items : List (Nat × Nat)) (st : State), st.files = [] →
      ∃ st', items.foldlM (fun st (e : Nat × Nat) => plotOne o (.number n) (numActive s) e.1 e.2 (ownLabel s e.2)
          (fileOf s e.2) st) st = Except.ok (ε := Err) st' ∧ st'.files = [] ∧
        (items ≠ [] → st'.name = c :: cs ∧ st'.current = some n) ∧
        (find? n st'.figs).getD [] = (find? n st.figs).getD [] ++ items.map fun e =>
          (e.2, legendLabel names (decide (1 < numActive s) || o.forceLegend) e.1 (ownLabel s e.2)) := by
    intro items
    induction items with
    | nil => intro st h; exact ⟨st, rfl, h, by simp, by simp⟩
    | cons e es ih =>
      intro st hfiles
      obtain ⟨st1, hst1, hf1, hn1, hc1, hd1⟩ : ∃ st1, plotOne o (.number n) (numActive s) e.1 e.2 (ownLabel s e.2)
            (fileOf s e.2) st = .ok st1 ∧ st1.files = [] ∧ st1.name = c :: cs ∧ st1.current = some n ∧
          find? n st1.figs = some ((find? n st.figs).getD [] ++
            [(e.2, legendLabel names (decide (1 < numActive s) || o.forceLegend) e.1 (ownLabel s e.2))]) := by
        refine ⟨_, by
          simp only [plotOne, saveOne, hs, nextName, h3, hdec, bind, Except.bind, pure, Except.pure, if_true,
            Bool.false_eq_true, if_false]
          rfl, ?_, ?_, ?_, ?_⟩
        · simp only [hpre, h4, saveFrame, draw, hfiles]
        · simp only [hpre, h4, saveFrame]
        · simp only [hpre, h4, saveFrame, draw, figureFor]
        · simp only [hpre, h4, saveFrame, draw, figureFor, PlotCmd.find?_put_self, PlotCmd.labelFor_eq hn]
      obtain ⟨st2, h21, h22, h23, h24⟩ := ih st1 hf1
      refine ⟨st2, ?_, h22, fun _ => ?_, ?_⟩
      · rw [List.foldlM_cons, hst1]
        exact h21
      · by_cases hes : es = []
        · subst hes
          have : st2 = st1 := by
            have h := h21
            simp only [List.foldlM_nil, pure, Except.pure, Except.ok.injEq] at h
            exact h.symm
          rw [this]
          exact ⟨hn1, hc1⟩
        · exact h23 hes
      · rw [h24, hd1, Option.getD_some, List.map_cons, List.append_assoc, List.singleton_append]
  obtain ⟨st', h8, h9, h10, h11⟩ := key items {} rfl
  refine ⟨finish o st', ?_, ?_⟩
  · rw [h8]; rfl
  · obtain ⟨h12, h13⟩ := h10 hne
    simp only [finish, hs, if_true, savefig, h12, h13, h9, Option.bind_some, h11]
    rfl

/-- C119 for `--save` into one figure (`--figure n` or `--subplots`): all the active datasets are drawn into it, in
order, and it is saved once, under the names of the files up to the first dot, joined by underscores.  All datasets must
come from files. -/
theorem C119_save_one {o : Opts} (h1 : o.saveframes = none) (h2 : o.save = true) (h3 : o.saveas = none)
    (h4 : o.batch = none) (h7 : o.multiblock = false)
    (h5 : (∃ n : Nat, o.figure = some (dec n)) ∨ (o.figure = none ∧ o.subplots = true))
    {names : List Text} (hn : LegendNames o.legend names) {s : Space F} (hr : Reachable s)
    {use : Option Tag} {ts : List Tag} (hts : Requests s use ts) (ls : Tag → List Nat)
    (hl : ∀ t ∈ ts, s.lookup t = some (ls t)) {items : List (Nat × Nat)}
    (hit : items = ts.flatMap fun t => visit s.active true (ls t)) (hne : items ≠ []) (stem : Nat → Text)
    (hst : ∀ e ∈ items, StemOfFile (fileOf s e.2) (stem e.2)) :
    ∃ st, plotCmd o use s = .ok st ∧
      st.files = [(joinWith '_' (items.map fun e => stem e.2), items.map fun e =>
          (e.2, legendLabel names (decide (1 < numActive s) || o.forceLegend) e.1 (ownLabel s e.2)))] := by
  obtain ⟨n, hw⟩ := PlotCmd.whereTo_number h7 h5
  have hs : saving o = true := by simp [saving, h2]
  have hpre : framePrefix o = none := by simp [framePrefix, h1]
  have hdec : decide (Where.number n = Where.fresh) = false := by simp
  rw [PlotCmd.plotCmd_eq o hr hts ls hl hw, ← hit]
  have key : ∀ (items : List (Nat × Nat)) (st : State), st.files = [] →
      (∀ e ∈ items, StemOfFile (fileOf s e.2) (stem e.2)) →
      ∃ st', items.foldlM (fun st (e : Nat × Nat) => plotOne o (.number n) (numActive s) e.1 e.2 (ownLabel s e.2)
          (fileOf s e.2) st) st = Except.ok (ε := Err) st' ∧ st'.files = [] ∧
        st'.name = joinWith '_' ((if st.name ≠ [] then [st.name] else []) ++ items.map fun e => stem e.2) ∧
        (items ≠ [] → st'.current = some n) ∧
        (find? n st'.figs).getD [] = (find? n st.figs).getD [] ++ items.map fun e =>
          (e.2, legendLabel names (decide (1 < numActive s) || o.forceLegend) e.1 (ownLabel s e.2)) := by
    intro items
    induction items with
    | nil =>
      intro st h _
      refine ⟨st, rfl, h, ?_, by simp, by simp⟩
      by_cases h0 : st.name = []
      · simp [h0, joinWith]
      · simp [h0, joinWith]
    | cons e es ih =>
      intro st hfiles hstem
      obtain ⟨f, fs, hf, hsp⟩ := PlotCmd.stem_eq (hstem e (by simp))
      have ht := (hstem e (by simp)).1
      obtain ⟨st1, hst1, hf1, hn1, hc1, hd1⟩ : ∃ st1, plotOne o (.number n) (numActive s) e.1 e.2 (ownLabel s e.2)
            (fileOf s e.2) st = .ok st1 ∧ st1.files = [] ∧
          st1.name = (if st.name ≠ [] then st.name ++ ['_'] else []) ++ stem e.2 ∧ st1.current = some n ∧
          find? n st1.figs = some ((find? n st.figs).getD [] ++
            [(e.2, legendLabel names (decide (1 < numActive s) || o.forceLegend) e.1 (ownLabel s e.2))]) := by
        refine ⟨_, by
          simp only [plotOne, saveOne, hs, nextName, h3, hdec, hf, hsp, bind, Except.bind, pure, Except.pure, if_true,
            Bool.false_eq_true, if_false]
          rfl, ?_, ?_, ?_, ?_⟩
        · simp only [hpre, h4, saveFrame, draw, hfiles]
        · simp only [hpre, h4, saveFrame, draw]; rfl
        · simp only [hpre, h4, saveFrame, draw, figureFor]
        · simp only [hpre, h4, saveFrame, draw, figureFor, PlotCmd.find?_put_self, PlotCmd.labelFor_eq hn]
      obtain ⟨st2, h21, h22, h23, h24, h25⟩ := ih st1 hf1 fun x hx => hstem x (by simp [hx])
      refine ⟨st2, ?_, h22, ?_, fun _ => ?_, ?_⟩
      · rw [List.foldlM_cons, hst1]
        exact h21
      · have hne1 : st1.name ≠ [] := by rw [hn1]; simp [ht]
        rw [h23, if_pos hne1, List.map_cons]
        by_cases h0 : st.name = []
        · rw [hn1]; simp [h0]
        · rw [hn1]
          simp only [h0, ne_eq, not_false_eq_true, if_true, List.singleton_append]
          cases es with
          | nil => simp [joinWith]
          | cons x xs => simp [joinWith]
      · by_cases hes : es = []
        · subst hes
          have : st2 = st1 := by
            have h := h21
            simp only [List.foldlM_nil, pure, Except.pure, Except.ok.injEq] at h
            exact h.symm
          rw [this]
          exact hc1
        · exact h24 hes
      · rw [h25, hd1, Option.getD_some, List.map_cons, List.append_assoc, List.singleton_append]
  obtain ⟨st', h8, h9, h10, h11, h12⟩ := key items {} rfl hst
  refine ⟨finish o st', ?_, ?_⟩
  · rw [h8]; rfl
  · simp only [ne_eq, not_true_eq_false, if_false, List.nil_append] at h10
    simp only [finish, hs, if_true, savefig, h10, h11 hne, h9, Option.bind_some, h12]
    rfl

end loop

/-! ## Datasets in two tags, and failures -/

section Ex

def ex1 : GData ℕ := { (GData.new "a".toList "one".toList {} : GData ℕ) with fileName := "x.gkyl".toList }
def ex2 : GData ℕ := { (GData.new "b".toList "two".toList {} : GData ℕ) with fileName := "y.gkyl".toList }
def ex3 : GData ℕ := { (GData.new "a".toList "three".toList {} : GData ℕ) with fileName := "z.gkyl".toList }
def exTwo : Space ℕ := perform [.add ex1, .add ex2]
def exOne : Space ℕ := perform [.add ex1, .add ex3]

/-- The numbers count within a tag: with datasets in two tags the picture of the first one is overwritten. -/
theorem C119_tags_fails : ((plotCmd { saveframes := some "p".toList } none exTwo).toOption.map (·.files)) =
    some [("p_0.png".toList, [(1, "two".toList)])] := by decide +kernel

/-- With `--figure dataset --save` only the last figure is saved. -/
theorem C119_dataset_figures_fails :
    ((plotCmd { figure := some "dataset".toList, save := true } none exOne).toOption.map (·.figs)) =
      some [(0, [(0, "one".toList)]), (1, [(1, "three".toList)])] ∧
    ((plotCmd { figure := some "dataset".toList, save := true } none exOne).toOption.map (·.files)) =
      some [("x_z".toList, [(1, "three".toList)])] := by
  constructor <;> decide +kernel

/-- A dataset that does not come from a file cannot be plotted with `--save`. -/
theorem C119_derived_fails (o : Opts) (h2 : o.save = true) (h3 : o.saveas = none) (w : Where) (n i id : Nat)
    (own : Text) (st : State) : plotOne o w n i id own [] st = .error .keyError := by
  have hs : saving o = true := by simp [saving, h2]
  simp only [plotOne, saveOne, hs, nextName, h3, bind, Except.bind, if_true]

/-! Non-vacuity -/
example : ((plotCmd { saveframes := some "p".toList, legend := some "u, v".toList } none exOne).toOption.map (·.files)) =
    some [("p_0.png".toList, [(0, "u".toList)]), ("p_1.png".toList, [(1, "v".toList)])] := by decide +kernel
example : ((plotCmd { save := true } none exOne).toOption.map (·.files)) =
    some [("x".toList, [(0, "one".toList)]), ("z".toList, [(1, "three".toList)]), ([], [(1, "three".toList)])] := by
  decide +kernel
example : ((plotCmd { figure := some "3".toList, saveas := some "f".toList } none exOne).toOption.map (·.files)) =
    some [("f".toList, [(0, "one".toList), (1, "three".toList)])] := by decide +kernel
example : ((plotCmd { subplots := true, save := true } none exOne).toOption.map (·.files)) =
    some [("x_z".toList, [(0, "one".toList), (1, "three".toList)])] := by decide +kernel
example : LegendNames (some "u, v".toList) ["u".toList, "v".toList] :=
  Or.inr ⟨by simp, [([], "u".toList, []), (" ".toList, "v".toList, [])], by decide, rfl, by
    intro p hp
    simp only [List.mem_cons, List.not_mem_nil, or_false] at hp
    rcases hp with rfl | rfl <;> refine ⟨?_, ?_, ⟨?_, ?_, ?_⟩, ?_, ?_⟩ <;> simp [Blanks] <;> decide⟩
example : StemOfFile "x.gkyl".toList "x".toList := ⟨by decide, by decide, Or.inr ⟨"gkyl".toList, by decide⟩⟩
end Ex

end Pgkyl
