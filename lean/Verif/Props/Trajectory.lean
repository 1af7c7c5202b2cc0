import Verif.Spec.Trajectory
import Verif.Props.Val2coord
import Verif.Lemmas.PairCommands
import Mathlib.Algebra.Ring.Rat
/-! # C156: pictures of trajectories -/

namespace Pgkyl
open Spec V2c

namespace V2c
variable {F : Type} [Add F] [Sub F] [Mul F] [LT F] [DecidableLT F]

omit [Add F] [Sub F] [Mul F] in
theorem hide_spec (l : Option F × Option F) (x : F) :
    (Between l x → hide l x = some x) ∧ (¬ Between l x → hide l x = none) := by
  obtain ⟨lo, hi⟩ := l
  unfold hide hideBelow hideAbove Between
  cases lo with
  | none =>
    cases hi with
    | none => simp
    | some b => by_cases h : x < b <;> simp [h]
  | some a =>
    cases hi with
    | none => by_cases h : a < x <;> simp [h]
    | some b =>
      by_cases h : a < x <;> by_cases h' : x < b <;> simp [h, h']

omit [Add F] [Sub F] [Mul F] in
theorem stands_hide (l : Limits F) (p : F × F × F) : Stands l p ⟨hide l.x p.1, hide l.y p.2.1, hide l.z p.2.2⟩ := by
  constructor
  · rintro ⟨h1, h2, h3⟩
    rw [(hide_spec _ _).1 h1, (hide_spec _ _).1 h2, (hide_spec _ _).1 h3]
  · rintro h ⟨h1, h2, h3⟩
    refine h ⟨?_, ?_, ?_⟩
    · exact not_not.mp fun hn => h1 ((hide_spec _ _).2 hn)
    · exact not_not.mp fun hn => h2 ((hide_spec _ _).2 hn)
    · exact not_not.mp fun hn => h3 ((hide_spec _ _).2 hn)

omit [Add F] [Sub F] [Mul F] in
theorem pointsOf_track {d : GData F} {tr : Track F} (h : HoldsTrack d tr) (lim : Limits F) {v : NArr F} (hv : d.values = some v) :
    pointsOf lim v = .ok (tr.positions.map fun p => ⟨hide lim.x p.1, hide lim.y p.2.1, hide lim.z p.2.2⟩) := by
  obtain ⟨v', nc, hv', hs, h3, -, -, hp⟩ := h.values
  rw [hv] at hv'
  cases hv'
  unfold pointsOf
  rw [hs]
  simp only
  rw [if_neg (by omega)]
  have e : tr.positions.map (fun p => (⟨hide lim.x p.1, hide lim.y p.2.1, hide lim.z p.2.2⟩ : Pt F)) =
      (List.range tr.positions.length).map fun j => ((tr.positions[j]?).map fun p =>
        (⟨hide lim.x p.1, hide lim.y p.2.1, hide lim.z p.2.2⟩ : Pt F)).getD ⟨none, none, none⟩ := by
    refine List.ext_getElem? fun i => ?_
    by_cases hi : i < tr.positions.length
    · simp [hi]
    · rw [List.getElem?_eq_none (by simpa using hi), List.getElem?_eq_none (by simpa using hi)]
  rw [e]
  apply Space.mapM_ok_of_forall
  intro j hj
  have hj' : j < tr.positions.length := by simpa using hj
  obtain ⟨h0, h1, h2⟩ := hp j _ (List.getElem?_eq_getElem hj')
  simp only [pointOf, entryAt, h0, h1, h2, bind, Except.bind, pure, Except.pure, List.getElem?_eq_getElem hj', Option.map_some,
    Option.getD_some]

/-- One dataset: the curve shows the trajectory, and the times are its own. -/
theorem drawSet_track {d : GData F} {tr : Track F} (h : HoldsTrack d tr) (o : TrajOpts F) {i leap : Nat} (k : Nat)
    (ht : i * leap < tr.positions.length) (htt : i * leap < tr.time.length)
    (hv : o.velocity = true → i < tr.positions.length) :
    ∃ c, drawSet o i leap k d = .ok (c, tr.time) ∧ c.color = k % 10 ∧ Shows o.limits tr (i * leap) c := by
  obtain ⟨t, rest, hg, htm⟩ := h.time
  obtain ⟨v, nc, hvv, hs, h3, h6, hall, hp⟩ := h.values
  have hpts := pointsOf_track h o.limits hvv
  have hget : (tr.positions.map fun p => (⟨hide o.limits.x p.1, hide o.limits.y p.2.1, hide o.limits.z p.2.2⟩ : Pt F))[i * leap]? =
      some ⟨hide o.limits.x tr.positions[i * leap].1, hide o.limits.y tr.positions[i * leap].2.1,
        hide o.limits.z tr.positions[i * leap].2.2⟩ := by
    rw [List.getElem?_map, List.getElem?_eq_getElem ht]; rfl
  have hst : ∀ p : Pt F, ∃ st, strokeOf (o.velocity && decide (d.numComps = 6)) tr.time v i leap p = .ok st := by
    intro p
    unfold strokeOf
    split
    · rename_i hw
      simp only [Bool.and_eq_true, decide_eq_true_eq] at hw
      obtain ⟨dt, hdt⟩ : ∃ dt, strokeTime tr.time (i * leap) leap = .ok dt := by
        unfold strokeTime
        rw [List.getElem?_eq_getElem htt]
        by_cases hlast : tr.time.length ≤ i * leap + leap
        · rw [if_pos hlast]
          cases hl : tr.time.getLast? with
          | none => rw [List.getLast?_eq_none_iff.mp hl] at htt; simp at htt
          | some b => exact ⟨_, rfl⟩
        · rw [if_neg hlast, List.getElem?_eq_getElem (by omega)]
          exact ⟨_, rfl⟩
      have hi := hv hw.1
      have h6' := h6 hw.2
      obtain ⟨a, ha⟩ := hall i 3 hi (by omega)
      obtain ⟨b, hb⟩ := hall i 4 hi (by omega)
      obtain ⟨c, hc⟩ := hall i 5 hi (by omega)
      exact ⟨some ⟨p.x.map (· + a * dt), p.y.map (· + b * dt), p.z.map (· + c * dt)⟩, by
        simp only [hdt, strokeEnd, entryAt, ha, hb, hc, bind, Except.bind, pure, Except.pure]⟩
    · exact ⟨_, rfl⟩
  obtain ⟨st, hst⟩ := hst ⟨hide o.limits.x tr.positions[i * leap].1, hide o.limits.y tr.positions[i * leap].2.1,
        hide o.limits.z tr.positions[i * leap].2.2⟩
  refine ⟨⟨_, k % 10, _, st⟩, ?_, rfl, ?_, ?_, hget⟩
  · simp only [drawSet, hg, hvv, hpts, curveOf, hget, hst, bind, Except.bind, pure, Except.pure, htm]
  · simp
  · intro j p hj
    refine ⟨_, ?_, stands_hide o.limits p⟩
    simp [List.getElem?_map, hj]

theorem fold_tracks (o : TrajOpts F) (s : Space F) (tr : Nat → Track F) (i leap : Nat) : ∀ (ids : List Nat)
    (cs : List (Curve F)) (tm : Option (List F)),
    (∀ id ∈ ids, ∃ d, s.heap[id]? = some d ∧ HoldsTrack d (tr id) ∧ i * leap < (tr id).positions.length ∧
      i * leap < (tr id).time.length ∧ (o.velocity = true → i < (tr id).positions.length)) →
    ∃ cs', ids.foldlM (drawStep o i leap s) (cs, tm) = .ok (cs ++ cs', (ids.getLast?.map fun id => (tr id).time).or tm) ∧
      cs'.length = ids.length ∧ ∀ k id, ids[k]? = some id → ∃ c, cs'[k]? = some c ∧ c.color = (cs.length + k) % 10 ∧
        Shows o.limits (tr id) (i * leap) c
  | [], cs, tm, _ => ⟨[], by simp [pure, Except.pure], rfl, by simp⟩
  | id :: ids, cs, tm, h => by
    obtain ⟨d, hd, htr, h1, h2, h3⟩ := h id List.mem_cons_self
    obtain ⟨c, hc, hcol, hsh⟩ := drawSet_track htr o cs.length h1 h2 h3
    obtain ⟨cs', hcs, hlen, hall⟩ := fold_tracks o s tr i leap ids (cs ++ [c]) (some (tr id).time)
      fun x hx => h x (List.mem_cons_of_mem _ hx)
    refine ⟨c :: cs', ?_, by simp [hlen], ?_⟩
    · rw [List.foldlM_cons]
      simp only [drawStep, hd, hc, Except.map, bind, Except.bind]
      rw [hcs, List.append_assoc, List.singleton_append]
      cases ids with
      | nil => simp
      | cons y ys =>
        rw [List.getLast?_cons_cons]
        cases hl : (y :: ys).getLast? with
        | none => simp at hl
        | some z => rfl
    · intro k x hk
      cases k with
      | zero =>
        cases hk
        exact ⟨c, rfl, by simpa using hcol, hsh⟩
      | succ k =>
        obtain ⟨c', hc', hcol', hsh'⟩ := hall k x (by simpa using hk)
        refine ⟨c', by simpa using hc', ?_, hsh'⟩
        rw [hcol', List.length_append, List.length_singleton]
        congr 1
        omega

end V2c

section
variable {F : Type} [Add F] [Sub F] [Mul F] [LT F] [DecidableLT F]

/-- **C156.**  With `n` positions in the first dataset of the tag there are `n` pictures, or as many as asked for (at most `n` if
velocities are drawn); picture `i` shows every active dataset of the tag, with position `i * (n / pictures)` marked; what lies outside
the limits is not seen, all other points are where they belong. -/
theorem C156_pictures_partial {s : Space F} (hi : s.Inv) {o : TrajOpts F} {tag : Tag} (hu : o.use = some tag) (hc : ',' ∉ tag) (hne : tag ≠ [])
    {id0 : Nat} {ids : List Nat} (hl : s.lookup tag = some (id0 :: ids)) {d0 : GData F} {n : Nat} {r : List Nat}
    (h0 : s.heap[id0]? = some d0) (hn : d0.numCells = some (n :: r)) (hn0 : n ≠ 0) {tr : Nat → Track F}
    (hd : ∀ id ∈ (id0 :: ids).filter s.active, ∃ d, s.heap[id]? = some d ∧ HoldsTrack d (tr id) ∧ n ≤ (tr id).positions.length ∧
      n ≤ (tr id).time.length)
    (hact : (id0 :: ids).filter s.active ≠ []) (hfr : o.velocity = true → wantedFrames n o.numframes ≤ n) :
    ∃ ps, trajectory o s = .ok ps ∧ ps.length = wantedFrames n o.numframes ∧
      ∀ (i : Nat) (p : Scene F), ps[i]? = some p →
        Depicts o.limits (((id0 :: ids).filter s.active).map tr) (i * (n / wantedFrames n o.numframes)) p := by
  have hfst : (frames n o.numframes).1 = wantedFrames n o.numframes := by
    rcases o.numframes with _ | _ | m <;> rfl
  have hsnd : (frames n o.numframes).2 = n / wantedFrames n o.numframes := by
    rcases o.numframes with _ | _ | m
    · simp [frames, wantedFrames, Nat.div_self (Nat.pos_of_ne_zero hn0)]
    · simp [frames, wantedFrames, Nat.div_self (Nat.pos_of_ne_zero hn0)]
    · rfl
  have hkey : tag ∈ s.dict.map Prod.fst := by
    unfold Space.lookup at hl
    cases hf : s.dict.find? (fun e => e.1 = tag) with
    | none => rw [hf] at hl; cases hl
    | some e =>
      have := List.find?_some hf
      simp only [decide_eq_true_eq] at this
      exact List.mem_map.mpr ⟨e, List.mem_of_find?_eq_some hf, this⟩
  obtain ⟨l, hl1, hl2⟩ := Space.toList_one hc hne hkey
  have hvis : visited s [tag] = (id0 :: ids).filter s.active := by simp [visited, hl]
  have hscene : ∀ i, i < (frames n o.numframes).1 → ∃ p, scene o s tag (frames n o.numframes).2 i = .ok p ∧
      Depicts o.limits (((id0 :: ids).filter s.active).map tr) (i * (frames n o.numframes).2) p := by
    intro i hif
    have hlt := frames_lt hn0 hif
    obtain ⟨cs, hcs, hlen, hall⟩ := fold_tracks o s tr i (frames n o.numframes).2 ((id0 :: ids).filter s.active) [] none (by
      intro id hid
      obtain ⟨d, h1, h2, h3, h4⟩ := hd id hid
      exact ⟨d, h1, h2, by omega, by omega, fun hv => by have := hfr hv; omega⟩)
    have hit : Space.iterate (σ := List (Curve F) × Option (List F)) (fun _ => s) (some tag) false true .none
        (fun acc _ id => drawStep o i (frames n o.numframes).2 s acc id) ([], none) =
        .ok (cs, (((id0 :: ids).filter s.active).getLast?.map fun id => (tr id).time).or none) := by
      rw [Space.iterate_ok (fun _ => s) (some tag) false true .none _ ([], none) hi (fun _ => True) trivial (fun _ _ _ _ _ _ => trivial)
        (fun _ _ _ _ _ => rfl) (fun _ _ _ _ => rfl) hl1]
      have : ∀ (l : List (Nat × Nat)) (st : List (Curve F) × Option (List F)),
          l.foldlM (fun st e => drawStep o i (frames n o.numframes).2 s st e.2) st =
          (l.map Prod.snd).foldlM (drawStep o i (frames n o.numframes).2 s) st := by
        intro l st
        rw [List.foldlM_map]
      rw [this, hl2, hvis, hcs]
      rfl
    obtain ⟨z, hz⟩ : ∃ z, ((id0 :: ids).filter s.active).getLast? = some z := by
      cases h : ((id0 :: ids).filter s.active).getLast? with
      | none => exact absurd (List.getLast?_eq_none_iff.mp h) hact
      | some z => exact ⟨z, rfl⟩
    obtain ⟨dz, -, -, -, hz4⟩ := hd z (List.mem_of_getLast? hz)
    have hzt : i * (frames n o.numframes).2 < (tr z).time.length := by omega
    refine ⟨⟨cs, (tr z).time[i * (frames n o.numframes).2], o.limits⟩, ?_, ?_, ?_, ?_, rfl⟩
    · simp only [scene, hit, hz, Option.map_some, Option.some_or, titleTime, List.getElem?_eq_getElem hzt, bind, Except.bind, pure,
        Except.pure]
    · simpa using hlen
    · intro k t hk
      rw [List.getElem?_map] at hk
      obtain ⟨id, hid, rfl⟩ := Option.map_eq_some_iff.mp hk
      obtain ⟨c, h1, h2, h3⟩ := hall k id hid
      exact ⟨c, h1, by simpa using h2, h3⟩
    · intro t ht
      rw [List.getLast?_map, hz] at ht
      cases ht
      exact List.getElem?_eq_getElem hzt
  have hget : s.getDataset 0 tag = .ok id0 := by
    simp [Space.getDataset, hl, listIndex]
  have htags : s.tagIterator o.use true = .ok [tag] := by
    rw [hu]
    cases tag with
    | nil => exact absurd rfl hne
    | cons c cs =>
      have := Space.tagsOf_one s hc hne
      simp only [Space.tagsOf, hne, if_false] at this
      simp only [Space.tagIterator, this]
  have : Nonempty (Scene F) := by
    obtain ⟨p, -⟩ := hscene 0 (by rw [hfst]; rcases o.numframes with _ | _ | m <;> simp [wantedFrames] <;> omega)
    exact ⟨p⟩
  choose! f hf using hscene
  refine ⟨(List.range (frames n o.numframes).1).map f, ?_, ?_, ?_⟩
  · simp only [trajectory, htags, scenes, hget, h0, hn, bind, Except.bind, Option.bind]
    exact Space.mapM_ok_of_forall fun i hi => (hf i (by simpa using hi)).1
  · simp [hfst]
  · intro i p hp
    rw [List.getElem?_map] at hp
    obtain ⟨j, hj, rfl⟩ := Option.map_eq_some_iff.mp hp
    have hj' := List.getElem?_eq_some_iff.mp hj
    obtain ⟨hb, he⟩ := hj'
    simp only [List.getElem_range] at he
    subst he
    rw [← hsnd]
    exact (hf i (by simpa using hb)).2

/-- **C156.**  If every position has its picture, the stroke from position `i` is the velocity there times the time to the next
position. -/
theorem C156_stroke {d : GData F} {tr : Track F} (h : HoldsTrack d tr) {o : TrajOpts F} (hvel : o.velocity = true) (h6 : d.numComps = 6)
    {i k : Nat} {p : F × F × F} (hp : tr.positions[i]? = some p) (hin : InLimits o.limits p) {a b : F} (ha : tr.time[i]? = some a)
    (hb : tr.time[i + 1]? = some b) {v : NArr F} (hv : d.values = some v) {vx vy vz : F} (hx : v.get? [i, 3] = some vx)
    (hy : v.get? [i, 4] = some vy) (hz : v.get? [i, 5] = some vz) {c : Curve F} {ts : List F}
    (hc : drawSet o i 1 k d = .ok (c, ts)) :
    c.mark = ⟨some p.1, some p.2.1, some p.2.2⟩ ∧
      c.stroke = some ⟨some (p.1 + vx * (b - a)), some (p.2.1 + vy * (b - a)), some (p.2.2 + vz * (b - a))⟩ := by
  obtain ⟨t, rest, hg, htm⟩ := h.time
  have hpts := pointsOf_track h o.limits hv
  have hget : (tr.positions.map fun p => (⟨hide o.limits.x p.1, hide o.limits.y p.2.1, hide o.limits.z p.2.2⟩ : Pt F))[i * 1]? =
      some ⟨some p.1, some p.2.1, some p.2.2⟩ := by
    rw [Nat.mul_one, List.getElem?_map, hp, Option.map_some, (hide_spec _ _).1 hin.1, (hide_spec _ _).1 hin.2.1,
      (hide_spec _ _).1 hin.2.2]
  have hdt : strokeTime tr.time (i * 1) 1 = .ok (b - a) := by
    have := (List.getElem?_eq_some_iff.mp hb).1
    unfold strokeTime
    rw [if_neg (by omega), Nat.mul_one, ha, hb]
  simp only [drawSet, hg, hv, hpts, curveOf, hget, htm, strokeOf, hvel, h6, hdt, strokeEnd, entryAt, hx, hy, hz, decide_true,
    Bool.and_self, if_true, bind, Except.bind, pure, Except.pure, Option.map_some] at hc
  cases hc
  exact ⟨rfl, rfl⟩

/-- C156 fails with velocities and more pictures than positions: the velocity of a row that does not exist is asked for.  (Without
velocities all pictures are of the first position, `C88_stuck_fails`.) -/
theorem C156_more_frames_fails {d : GData F} {tr : Track F} (h : HoldsTrack d tr) {o : TrajOpts F} (hvel : o.velocity = true)
    (h6 : d.numComps = 6) (h0 : tr.positions ≠ []) (ht : tr.time ≠ []) {m : Nat} (hm : tr.positions.length < m)
    {v : NArr F} (hv : d.values = some v) (hout : ∀ k, v.get? [tr.positions.length, k] = none) (k : Nat) :
    (frames tr.positions.length (some m)).2 = 0 ∧
      tr.positions.length < (frames tr.positions.length (some m)).1 ∧
      drawSet o tr.positions.length (frames tr.positions.length (some m)).2 k d = .error .indexError := by
  have hj : (frames tr.positions.length (some m)).2 = 0 := by
    obtain ⟨q, rfl⟩ : ∃ q, m = q + 1 := ⟨m - 1, by omega⟩
    exact Nat.div_eq_of_lt hm
  refine ⟨hj, ?_, ?_⟩
  · obtain ⟨q, rfl⟩ : ∃ q, m = q + 1 := ⟨m - 1, by omega⟩
    exact hm
  · rw [hj]
    obtain ⟨t, rest, hg, htm⟩ := h.time
    have hpts := pointsOf_track h o.limits hv
    obtain ⟨p, hp⟩ : ∃ p, (tr.positions.map fun p =>
        (⟨hide o.limits.x p.1, hide o.limits.y p.2.1, hide o.limits.z p.2.2⟩ : Pt F))[tr.positions.length * 0]? = some p := by
      cases hpos : tr.positions with
      | nil => exact absurd hpos h0
      | cons x xs => exact ⟨⟨hide o.limits.x x.1, hide o.limits.y x.2.1, hide o.limits.z x.2.2⟩, by simp⟩
    obtain ⟨dt, hdt⟩ : ∃ dt, strokeTime tr.time (tr.positions.length * 0) 0 = .ok dt := by
      cases htt : tr.time with
      | nil => exact absurd htt ht
      | cons x xs => exact ⟨x - x, by simp [strokeTime]⟩
    simp only [drawSet, hg, hv, hpts, curveOf, hp, htm, strokeOf, hvel, h6, hdt, strokeEnd, entryAt, hout, decide_true, Bool.and_self,
      if_true, bind, Except.bind]

/-- **C156.**  More than one tag is refused. -/
theorem C156_one_tag {s : Space F} {o : TrajOpts F} {a b : Tag} {ts : List Tag} (h : s.tagIterator o.use true = .ok (a :: b :: ts)) :
    trajectory o s = .error .fail := by
  simp only [trajectory, h, bind, Except.bind]

/-- C156 fails without active datasets: the first of no tags is asked for. -/
theorem C156_nothing_fails {s : Space F} {o : TrajOpts F} (h : s.tagIterator o.use true = .ok []) :
    trajectory o s = .error .indexError := by
  simp only [trajectory, h, bind, Except.bind]

end

section Witness

/-- Times 0, 1, 2, ... and the rows of a trajectory. -/
def V2c.trackSet (on : Bool) (rows : List (List ℚ)) : GData ℚ :=
  { GData.new "t".toList [] {} with
    grid := some [NArr.ofList ((List.range rows.length).map fun (k : Nat) => (k : ℚ))]
    values := some ⟨[rows.length, (rows.headD []).length], rows.flatten⟩
    status := on }

/-- Two trajectories. -/
def V2c.trackSpace (on : Bool) : Space ℚ :=
  { heap := [trackSet on [[0, 0, 0], [1, 0, 0], [2, 1, 0]], trackSet true [[5, 0, 0], [6, 0, 0]]]
    dict := [("t".toList, [0, 1])] }

/-- A moving particle, seen up to `x = 3`. -/
def V2c.movingSpace : Space ℚ :=
  { heap := [trackSet true [[0, 0, 0, 2, 1, 0], [2, 1, 0, 2, 0, 1], [4, 1, 1, 0, 0, 0]]]
    dict := [("t".toList, [0])] }

example : (trajectory (F := ℚ) { limits := { x := (none, some 3) } } movingSpace).toOption.map (fun ps => ps.map fun p => (p.time, p.curves)) =
    some [(0, [⟨[⟨some 0, some 0, some 0⟩, ⟨some 2, some 1, some 0⟩, ⟨none, some 1, some 1⟩], 0, ⟨some 0, some 0, some 0⟩,
              some ⟨some 2, some 1, some 0⟩⟩]),
          (1, [⟨[⟨some 0, some 0, some 0⟩, ⟨some 2, some 1, some 0⟩, ⟨none, some 1, some 1⟩], 0, ⟨some 2, some 1, some 0⟩,
              some ⟨some 4, some 1, some 1⟩⟩]),
          (2, [⟨[⟨some 0, some 0, some 0⟩, ⟨some 2, some 1, some 0⟩, ⟨none, some 1, some 1⟩], 0, ⟨none, some 1, some 1⟩,
              some ⟨none, some 1, some 1⟩⟩])] := by
  decide +kernel

/-- The hypotheses of `C156_pictures_partial` hold there. -/
example : movingSpace.Inv ∧ movingSpace.lookup "t".toList = some [0] ∧ [0].filter movingSpace.active = [0] ∧
    (trackSet true [[0, 0, 0, 2, 1, 0], [2, 1, 0, 2, 0, 1], [4, 1, 1, 0, 0, 0]]).numCells = some [3] ∧
    HoldsTrack (trackSet true [[0, 0, 0, 2, 1, 0], [2, 1, 0, 2, 0, 1], [4, 1, 1, 0, 0, 0]])
      ⟨[0, 1, 2], [(0, 0, 0), (2, 1, 0), (4, 1, 1)]⟩ := by
  refine ⟨by constructor <;> decide +kernel, by decide +kernel, by decide +kernel, by decide +kernel, ⟨_, _, rfl, by decide +kernel⟩,
    _, 6, rfl, by decide +kernel, by omega, by omega, ?_, ?_⟩
  · intro i k hi hk
    refine Option.isSome_iff_exists.mp ?_
    have : ∀ i < 3, ∀ k < 6, ((⟨[3, 6], [0, 0, 0, 2, 1, 0, 2, 1, 0, 2, 0, 1, 4, 1, 1, 0, 0, 0]⟩ : NArr ℚ).get? [i, k]).isSome = true := by
      decide +kernel
    exact this i hi k hk
  · intro j p hj
    rcases j with _ | _ | _ | j
    · cases hj; decide +kernel
    · cases hj; decide +kernel
    · cases hj; decide +kernel
    · simp at hj

/-- C156 fails for trajectories of different lengths: the number of pictures is that of the first dataset, and the second one has no
third position. -/
theorem C156_lengths_fails : (trajectory { velocity := false } (trackSpace true)).toOption.isNone = true := by decide +kernel

/-- C156 fails for a first dataset that is switched off: it is not drawn, but still decides on the number of pictures. -/
theorem C156_inactive_fails : (trajectory { velocity := false } (trackSpace false)).toOption.isNone = true ∧
    (trajectory { velocity := false } { trackSpace true with dict := [("t".toList, [1])] }).toOption.map List.length = some 2 := by
  decide +kernel

end Witness
end Pgkyl
