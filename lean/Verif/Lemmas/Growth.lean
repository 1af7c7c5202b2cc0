import Verif.Model.Growth
import Verif.Spec.Growth
import Verif.Lemmas.Commands
import Verif.Lemmas.NArr
/-! # Lemmas: the `growth` command -/

namespace Pgkyl
open Spec

namespace Space
variable {F : Type}

theorem foldl_addNew_other {t : Tag} (rs : List (GData F)) : ∀ s : Space F, (∀ r ∈ rs, r.tag ≠ t) →
    (rs.foldl addNew s).lookup t = s.lookup t := by
  induction rs with
  | nil => intro s _; rfl
  | cons r rs ih =>
    intro s h
    rw [List.foldl_cons, ih _ fun r hr => h r (by simp [hr]), addNew_lookup, if_neg (h r (by simp))]

/-- The body of a command that adds the results `res d` for a dataset `d`. -/
def addBody (res : GData F → Except Err (List (GData F))) (s : Space F) (i : Nat) : Except Err (Space F) :=
  match s.heap[i]? with
  | none => .ok s
  | some d => (res d).map fun rs => rs.foldl addNew s

theorem addBody_grows {res : GData F → Except Err (List (GData F))} {st st' : Space F} {i : Nat}
    (hb : addBody res st i = .ok st') : ∃ x, st'.heap = st.heap ++ x := by
  unfold addBody at hb
  cases hd : st.heap[i]? with
  | none => simp only [hd] at hb; cases hb; exact ⟨[], by simp⟩
  | some d =>
    simp only [hd] at hb
    cases hr : res d with
    | error e => rw [hr] at hb; cases hb
    | ok rs => rw [hr] at hb; cases hb; exact ⟨rs, foldl_addNew_heap _ _⟩

/-- A command that adds results, none of them under a tag still to be visited, works on the datasets that were there. -/
theorem iterate_addBody {s : Space F} (hi : s.Inv) {use : Option Tag} (hkeys : ∀ t ∈ s.tagsOf use, t ∈ s.dict.map Prod.fst)
    (res : GData F → Except Err (List (GData F)))
    (htag : ∀ d rs, res d = .ok rs → ∀ r ∈ rs, r.tag ∉ (s.tagsOf use).tail) :
    iterate id use false true .none (fun s _ i => addBody res s i) s = (visited s (s.tagsOf use)).foldlM (addBody res) s := by
  obtain ⟨l, hl, hv⟩ := toList_visited' hkeys
  rw [iterate_ok (σ := Space F) id use false true .none _ s hi
    (fun s' => (∃ x, s'.heap = s.heap ++ x) ∧ ∀ t ∈ (s.tagsOf use).tail, s'.lookup t = s.lookup t)
    ⟨⟨[], by simp⟩, fun _ _ => rfl⟩ ?_ (by rintro - st' ⟨⟨x, hx⟩, _⟩ i hi; exact active_append hx hi)
    (by rintro st' ⟨_, hlk⟩ t ht; exact hlk t ht) hl]
  · rw [← hv, List.foldlM_map]
  · rintro st i id st' ⟨⟨x, hx⟩, hlk⟩ hb
    obtain ⟨x', hx'⟩ := addBody_grows hb
    refine ⟨⟨x ++ x', by rw [hx', hx, List.append_assoc]⟩, fun t ht => ?_⟩
    unfold addBody at hb
    cases hd : st.heap[id]? with
    | none => simp only [hd] at hb; cases hb; exact hlk t ht
    | some d =>
      simp only [hd] at hb
      cases hr : res d with
      | error e => rw [hr] at hb; cases hb
      | ok rs =>
        rw [hr] at hb
        cases hb
        rw [foldl_addNew_other rs st, hlk t ht]
        intro r hrr he
        exact htag d rs hr r hrr (he ▸ ht)

theorem foldl_addNew_lists {t : Tag} (rs : List (GData F)) : ∀ s : Space F, ((rs.foldl addNew s).lookup t).getD [] =
    (s.lookup t).getD [] ++ ((rs.zipIdx s.heap.length).filter fun p => p.1.tag = t).map (·.2) := by
  induction rs with
  | nil => intro s; simp
  | cons r rs ih =>
    intro s
    rw [List.foldl_cons, ih, addNew_lookup, addNew_heap]
    by_cases h : r.tag = t
    · simp [h]
    · simp [h]

/-- A command that adds results for every visited dataset. -/
theorem iterate_adds {s : Space F} (hi : s.Inv) {use : Option Tag} (hkeys : ∀ t ∈ s.tagsOf use, t ∈ s.dict.map Prod.fst)
    (res : GData F → Except Err (List (GData F))) (news : Nat → List (GData F))
    (htag : ∀ d rs, res d = .ok rs → ∀ r ∈ rs, r.tag ∉ (s.tagsOf use).tail)
    (hok : ∀ i ∈ visited s (s.tagsOf use), ∀ d, s.heap[i]? = some d → res d = .ok (news i)) :
    ∃ s', iterate id use false true .none (fun s _ i => addBody res s i) s = .ok s' ∧
      AddsMade s (visited s (s.tagsOf use)) news s' := by
  refine ⟨((visited s (s.tagsOf use)).flatMap news).foldl addNew s, ?_, foldl_addNew_heap _ _,
    fun t => foldl_addNew_lists _ _⟩
  rw [iterate_addBody hi hkeys res htag]
  have hget : ∀ i ∈ visited s (s.tagsOf use), ∃ d, s.heap[i]? = some d :=
    fun i hi' => (visited_get hi hi').imp fun d h => h.1
  generalize visited s (s.tagsOf use) = l at hok hget ⊢
  suffices h : ∀ st : Space F, (∃ x, st.heap = s.heap ++ x) →
      l.foldlM (addBody res) st = .ok ((l.flatMap news).foldl addNew st) from h s ⟨[], by simp⟩
  induction l with
  | nil => intro st _; rfl
  | cons e l ih =>
    rintro st ⟨x, hx⟩
    obtain ⟨d, hd⟩ := hget e (by simp)
    have hst : st.heap[e]? = some d := by
      rw [hx, List.getElem?_append_left (List.getElem?_eq_some_iff.1 hd).1]; exact hd
    rw [List.foldlM_cons, addBody]
    simp only [hst, hok _ (by simp) d hd, Except.map, bind, Except.bind]
    have := ih (fun i hi' => hok i (by simp [hi'])) (fun i hi' => hget i (by simp [hi'])) ((news e).foldl addNew st)
      ⟨x ++ news e, by rw [foldl_addNew_heap, hx, List.append_assoc]⟩
    rw [List.flatMap_cons, List.foldl_append]
    exact this

/-- A dataset that is refused. -/
theorem iterate_adds_fails {s : Space F} (hi : s.Inv) {use : Option Tag}
    (hkeys : ∀ t ∈ s.tagsOf use, t ∈ s.dict.map Prod.fst) (res : GData F → Except Err (List (GData F)))
    (htag : ∀ d rs, res d = .ok rs → ∀ r ∈ rs, r.tag ∉ (s.tagsOf use).tail) {i : Nat}
    (hiv : i ∈ visited s (s.tagsOf use)) {d : GData F} (hd : s.heap[i]? = some d) {err : Err} (hf : res d = .error err) :
    ∃ err, iterate id use false true .none (fun s _ i => addBody res s i) s = .error err := by
  rw [iterate_addBody hi hkeys res htag]
  generalize visited s (s.tagsOf use) = l at hiv
  suffices h : ∀ st : Space F, (∃ x, st.heap = s.heap ++ x) → ∃ err, l.foldlM (addBody res) st = .error err from
    h s ⟨[], by simp⟩
  induction l with
  | nil => simp at hiv
  | cons e l ih =>
    rintro st ⟨x, hx⟩
    rw [foldlM_ok_cons]
    cases hb : addBody res st e with
    | error err => exact ⟨err, rfl⟩
    | ok st' =>
      rcases List.mem_cons.1 hiv with rfl | hiv
      · have hst : st.heap[i]? = some d := by
          rw [hx, List.getElem?_append_left (List.getElem?_eq_some_iff.1 hd).1]; exact hd
        unfold addBody at hb
        simp only [hst, hf] at hb
        cases hb
      · obtain ⟨x', hx'⟩ := addBody_grows hb
        exact ih hiv st' ⟨x ++ x', by rw [hx', hx, List.append_assoc]⟩

end Space

namespace Growth
open Fit

theorem entries_ok {v : NArr ℝ} {y : List ℝ} {idx : Nat → List Nat}
    (h : ∀ (i : Nat) (x : ℝ), y[i]? = some x → v.get? (idx i) = some x) : entries v y.length idx = .ok y := by
  unfold entries
  have : ∀ (y : List ℝ) (k : Nat), (∀ (i : Nat) (x : ℝ), y[i]? = some x → v.get? (idx (k + i)) = some x) →
      (List.range' k y.length).mapM (fun i => match v.get? (idx i) with
        | some x => .ok x
        | none => .error .indexError) = Except.ok (ε := Err) y := by
    intro y
    induction y with
    | nil => intro k _; rfl
    | cons a y ih =>
      intro k h
      rw [List.length_cons, List.range'_succ, List.mapM_cons]
      have h0 := h 0 a rfl
      rw [Nat.add_zero] at h0
      rw [h0, ih (k + 1) fun i x hx => by have := h (i + 1) x (by simpa using hx); rwa [show k + 1 + i = k + (i + 1) by omega]]
      rfl
  have := this y 0 (by simpa using h)
  rwa [← List.range_eq_range'] at this

theorem push_tag' {d r : GData ℝ} {g : List (NArr ℝ)} {v : NArr ℝ} (h : d.push g v = .ok r) : r.tag = d.tag := by
  simp only [GData.push, GData.setValues, bind, Except.bind] at h
  cases hs : v.shape.getLast? with
  | none => simp [hs] at h
  | some nc =>
    simp only [hs] at h
    unfold GData.setGrid at h
    simp only [bind, Except.bind, pure, Except.pure] at h
    repeat' split at h
    all_goals first | (cases h; rfl) | cases h

theorem minima_one {t : List ℝ} (ht : t ≠ []) : ∃ l, GData.minima 1 [NArr.ofList t] = .ok l := by
  cases h : t.min? with
  | none => rw [List.min?_eq_none_iff] at h; exact absurd h ht
  | some m => exact ⟨[m], by simp [GData.minima, NArr.ofList, h, bind, Except.bind, pure, Except.pure]⟩

theorem maxima_one {t : List ℝ} (ht : t ≠ []) : ∃ l, GData.maxima 1 [NArr.ofList t] = .ok l := by
  cases h : t.max? with
  | none => rw [List.max?_eq_none_iff] at h; exact absurd h ht
  | some m => exact ⟨[m], by simp [GData.maxima, NArr.ofList, h, bind, Except.bind, pure, Except.pure]⟩

theorem midpoints_length (t : List ℝ) : (midpoints t).length = t.length - 1 := by
  simp [midpoints]

theorem midpoints_get {t : List ℝ} {i : Nat} {x y : ℝ} (hx : t[i]? = some x) (hy : t[i + 1]? = some y) :
    (midpoints t)[i]? = some ((x + y) / 2) := by
  have hi := (List.getElem?_eq_some_iff.1 hy).1
  have h1 : t.dropLast[i]? = some x := by
    rw [List.getElem?_dropLast, if_pos (by omega)]; exact hx
  have h2 : t.tail[i]? = some y := by
    rw [List.getElem?_tail]; exact hy
  simp only [midpoints, List.getElem?_zipWith, h1, h2]
  congr 1; ring

theorem column_get (l : List ℝ) (i : Nat) : (⟨[l.length, 1], l⟩ : NArr ℝ).get? [i, 0] = l[i]? := by
  unfold NArr.get?
  by_cases h : i < l.length
  · rw [if_pos (by simp [inRange, h])]
    simp [ravel]
  · rw [if_neg (by simp [inRange, h]), List.getElem?_eq_none (by omega)]

theorem fitSet_holds (d : GData ℝ) {t : List ℝ} (ht : t ≠ []) (a b : ℝ) :
    ∃ r, fitSet d (NArr.ofList t) (a, b) = .ok r ∧ HoldsFit t a b r := by
  obtain ⟨l, hl⟩ := minima_one ht
  obtain ⟨u, hu⟩ := maxima_one ht
  have := GData.push_ok (d := GData.new "growth".toList "Fit".toList d.ctx) (g := [NArr.ofList t])
    (v := ⟨[(midpoints (NArr.ofList t).data).length, 1], (midpoints (NArr.ofList t).data).map fun x => exp2 x a b⟩)
    (nc := 1) (l := l) (u := u) rfl hl hu
  refine ⟨_, this, rfl, rfl, rfl, rfl, _, rfl, ?_, ?_⟩
  · simp [midpoints_length, NArr.ofList]
  · intro i x y hx hy
    have e : ((midpoints (NArr.ofList t).data).map fun x => exp2 x a b).length = (midpoints (NArr.ofList t).data).length := by simp
    rw [← e, column_get, List.getElem?_map]
    show Option.map _ (midpoints t)[i]? = _
    rw [midpoints_get hx hy]
    rfl

theorem rateSet_holds (d : GData ℝ) (c : Char) (cs label : List Char) (b : ℝ) :
    ∃ r, rateSet d (c :: cs) label [b] = .ok r ∧ HoldsRate (c :: cs) label b r := by
  obtain ⟨l, hl⟩ := minima_one (t := [0]) (by simp)
  obtain ⟨u, hu⟩ := maxima_one (t := [0]) (by simp)
  have e : (List.range [b].length).map (fun (k : Nat) => (k : ℝ)) = [0] := by simp
  have := GData.push_ok (d := GData.new (c :: cs) label d.ctx) (g := [NArr.ofList [0]])
    (v := ⟨[1, 1], [b]⟩) (nc := 1) (l := l) (u := u) rfl hl hu
  refine ⟨_, by unfold rateSet; rw [e]; exact this, rfl, ?_, rfl, rfl, rfl⟩
  intro hl
  simp [GData.getLabel, GData.new, hl]

theorem fitSet_tag {d r : GData ℝ} {t : NArr ℝ} {p : ℝ × ℝ} (h : fitSet d t p = .ok r) : r.tag = "growth".toList :=
  push_tag' h

theorem fitSets_tags {o : Opts} {d : GData ℝ} {g : List (NArr ℝ)} : ∀ {fits : List (ℝ × ℝ)} {rs : List (GData ℝ)},
    fitSets o d g fits = .ok rs → ∀ r ∈ rs, o.dataset = true ∧ r.tag = "growth".toList := by
  intro fits rs h r hr
  unfold fitSets at h
  split at h
  · rename_i ho
    refine ⟨ho, ?_⟩
    cases g with
    | nil => cases h
    | cons t g =>
      simp only at h
      induction fits generalizing rs with
      | nil => cases h; simp at hr
      | cons p fits ih =>
        rw [List.mapM_cons] at h
        simp only [bind, Except.bind, pure, Except.pure] at h
        cases h1 : fitSet d t p with
        | error e => rw [h1] at h; cases h
        | ok r1 =>
          rw [h1] at h
          simp only at h
          cases h2 : fits.mapM (fitSet d t) with
          | error e => rw [h2] at h; cases h
          | ok rs =>
            rw [h2] at h
            cases h
            rcases List.mem_cons.1 hr with rfl | hr
            · exact fitSet_tag h1
            · exact ih hr h2
  · cases h; simp at hr

theorem rateSets_tags {o : Opts} {d : GData ℝ} {l : List ℝ} {rs : List (GData ℝ)} (h : rateSets o d l = .ok rs) :
    ∀ r ∈ rs, o.tag = some r.tag := by
  unfold rateSets at h
  split at h
  · rename_i c cs ht
    cases hr : rateSet d (c :: cs) o.label l with
    | error e => rw [hr] at h; cases h
    | ok r =>
      rw [hr] at h
      cases h
      intro r' hr'
      simp only [List.mem_singleton] at hr'
      subst hr'
      rw [ht, push_tag' hr]
      rfl
  · cases h; simp

theorem sets_tags (fit : Fitter) (o : Opts) (d : GData ℝ) (rs : List (GData ℝ)) (h : sets fit o d = .ok rs) :
    ∀ r ∈ rs, (o.dataset = true ∧ r.tag = "growth".toList) ∨ (o.tag = some r.tag) := by
  unfold sets at h
  split at h
  · rename_i g v hg hv
    simp only [bind, Except.bind, pure, Except.pure] at h
    cases hn : numRates o v.shape with
    | error e => rw [hn] at h; cases h
    | ok n =>
    rw [hn] at h
    simp only at h
    cases hf : (List.range n).mapM (oneFit fit o g v) with
    | error e => rw [hf] at h; cases h
    | ok fits =>
    rw [hf] at h
    simp only at h
    cases h1 : fitSets o d g fits with
    | error e => rw [h1] at h; cases h
    | ok fitted =>
    rw [h1] at h
    simp only at h
    cases h2 : rateSets o d (fits.map (·.2)) with
    | error e => rw [h2] at h; cases h
    | ok rates =>
    rw [h2] at h
    cases h
    intro r hr
    rcases List.mem_append.1 hr with hr | hr
    · exact Or.inl (fitSets_tags h1 r hr)
    · exact Or.inr (rateSets_tags h2 r hr)
  · cases h

/-- What is made from one series. -/
theorem sets_series (fit : Fitter) (o : Opts) {d : GData ℝ} {t y : List ℝ} (hd : IsSeries d t y) (hdir : o.dir = none)
    {a b r2 : ℝ} {N : Nat} (hfit : fitGrowth fit t y o.minN o.guess = .ok ((a, b), r2, N)) :
    ∃ fitted rates, sets fit o d = .ok (fitted ++ rates) ∧
      (if o.dataset then ∃ r, fitted = [r] ∧ HoldsFit t a b r else fitted = []) ∧
      (match o.tag with
        | some (c :: cs) => ∃ r, rates = [r] ∧ HoldsRate (c :: cs) o.label b r
        | _ => rates = []) := by
  obtain ⟨ht, -, hg, v, nc, hv, hs, hy⟩ := hd
  have ht : t ≠ [] := by rintro rfl; simp at ht
  have h1 : oneFit fit o [NArr.ofList t] v 0 = .ok (a, b) := by
    have hx : abscissae o [NArr.ofList t] = .ok t := by simp [abscissae, hdir, NArr.ofList]
    have ho : ordinates o v 0 = .ok y := by
      simp only [ordinates, hdir, reduceCtorEq, if_false, hs]
      exact entries_ok hy
    simp only [oneFit, hx, ho, hfit, bind, Except.bind, pure, Except.pure]
  have h2 : numRates o v.shape = .ok 1 := by simp [numRates, hs, hdir]
  have h3 : (List.range 1).mapM (oneFit fit o [NArr.ofList t] v) = .ok [(a, b)] := by
    show [0].mapM _ = _
    rw [List.mapM_cons, h1]; rfl
  obtain ⟨rf, hrf, hhf⟩ := fitSet_holds d ht a b
  have h4 : [(a, b)].mapM (fitSet d (NArr.ofList t)) = .ok [rf] := by
    rw [List.mapM_cons, hrf]; rfl
  obtain ⟨fitted, hfe, hfs⟩ : ∃ fitted, fitSets o d [NArr.ofList t] [(a, b)] = .ok fitted ∧
      (if o.dataset then ∃ r, fitted = [r] ∧ HoldsFit t a b r else fitted = []) := by
    unfold fitSets
    cases o.dataset with
    | true => exact ⟨[rf], h4, rf, rfl, hhf⟩
    | false => exact ⟨[], rfl, rfl⟩
  obtain ⟨rates, hre, hrs⟩ : ∃ rates, rateSets o d [b] = .ok rates ∧
      (match o.tag with
        | some (c :: cs) => ∃ r, rates = [r] ∧ HoldsRate (c :: cs) o.label b r
        | _ => rates = []) := by
    unfold rateSets
    cases o.tag with
    | none => exact ⟨[], rfl, rfl⟩
    | some tg =>
      cases tg with
      | nil => exact ⟨[], rfl, rfl⟩
      | cons c cs =>
        obtain ⟨r, hr, hh⟩ := rateSet_holds d c cs o.label b
        exact ⟨[r], by simp only [hr, Except.map], r, rfl, hh⟩
  refine ⟨fitted, rates, ?_, hfs, hrs⟩
  unfold sets
  rw [hg, hv]
  simp only [h2, h3, bind, Except.bind, pure, Except.pure, List.map_cons, List.map_nil, hfe, hre]

end Growth
end Pgkyl
