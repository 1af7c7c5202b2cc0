import Verif.Lemmas.Collect
import Verif.Lemmas.GData
import Verif.Lemmas.Inputs
import Verif.Lemmas.Integrate
import Verif.Lemmas.Select
import Verif.Spec.Failing
/-! # Lemmas for C160 -/

namespace Pgkyl.Failing
open Spec Inp
variable {F : Type}

section
variable [Min F] [Max F]

theorem push_agrees (d : GData F) (g : List (NArr F)) (v : NArr F) : Agrees (d.push g v) _root_.id (push d g v) := by
  unfold Agrees push setValues setGrid GData.push
  cases d.setValues v with
  | error e =>
    refine ⟨fun a h => (by cases h), fun e' h => ?_⟩
    cases h
    rfl
  | ok d' =>
    show (∀ a, d'.setGrid g = .ok a → _) ∧ ∀ e, d'.setGrid g = .error e → _
    cases d'.setGrid g with
    | error e =>
      refine ⟨fun a h => (by cases h), fun e' h => ?_⟩
      cases h
      rfl
    | ok d'' =>
      refine ⟨fun a h => ?_, fun e' h => (by cases h)⟩
      cases h
      rfl

/-- A grid with nodes, and values with no more axes: nothing fails. -/
theorem push_nodes {d : GData F} {g : List (NArr F)} {v : NArr F} (hg : HasNodes g (v.shape.length - 1)) (hv : v.shape ≠ []) :
    (push d g v).error = none := by
  obtain ⟨nc, hnc⟩ : ∃ nc, v.shape.getLast? = some nc := ⟨_, List.getLast?_eq_some_getLast hv⟩
  obtain ⟨l, hl⟩ := Collect.minima_ok hg.node hg.count
  obtain ⟨u, hu⟩ := Collect.maxima_ok hg.node hg.count
  rw [(push_agrees d g v).1 _ (GData.push_ok hnc hl hu)]

/-- What `push` leaves behind when it raises. -/
theorem push_left {d : GData F} {g : List (NArr F)} {v : NArr F} (hv : v.shape ≠ []) {e : Err}
    (h : (push d g v).error = some e) :
    (push d g v).state = { d with
        grid := some g
        values := some v
        ctx := { d.ctx with cells := some v.shape.dropLast, numComps := v.shape.getLast? } } := by
  obtain ⟨nc, hnc⟩ : ∃ nc, v.shape.getLast? = some nc := ⟨_, List.getLast?_eq_some_getLast hv⟩
  unfold push setValues at h ⊢
  rw [GData.setValues_ok hnc] at h ⊢
  unfold setGrid at h ⊢
  simp only at h ⊢
  split at h
  · cases h
  · rename_i hs
    rw [hnc]

end

/-! ### The number of axes -/

/-- If the call returns, the result has `n` axes. -/
def Rank (n : Nat) (m : Except Err (NArr F)) : Prop := ∀ r, m = .ok r → r.shape.length = n

theorem Rank.bind {n k : Nat} {m : Except Err (NArr F)} {f : NArr F → Except Err (NArr F)} (hm : Rank k m)
    (hf : ∀ a : NArr F, a.shape.length = k → Rank n (f a)) : Rank n (m >>= f) := by
  intro r h
  obtain ⟨a, ha, hr⟩ := bind_ok h
  exact hf a (hm a ha) r hr

theorem Rank.bind' {α : Type} {n : Nat} {m : Except Err α} {f : α → Except Err (NArr F)}
    (hf : ∀ a : α, Rank n (f a)) : Rank n (m >>= f) := by
  intro r h
  obtain ⟨a, -, hr⟩ := bind_ok h
  exact hf a r hr

theorem Rank.pure {a : NArr F} {n : Nat} (h : a.shape.length = n) : Rank n (Pure.pure a) := by
  intro r hr
  cases hr
  exact h

theorem bcastRev_length : ∀ {a b s : List Nat}, a.length = b.length → bcastRev a b = some s → s.length = a.length
  | [], [], s, _, h => by cases h; rfl
  | [], _ :: _, _, h, _ => by simp at h
  | _ :: _, [], _, h, _ => by simp at h
  | x :: a, y :: b, s, h, hs => by
    simp only [bcastRev] at hs
    split_ifs at hs
    all_goals
      obtain ⟨t, ht, rfl⟩ := Option.map_eq_some_iff.1 hs
      simp only [List.length_cons, bcastRev_length (by simpa using h) ht]

theorem zip2_rank (f : F → F → F) {a b : NArr F} {n : Nat} (ha : a.shape.length = n) (hb : b.shape.length = n) :
    Rank n (NArr.zip2 f a b) := by
  intro r h
  unfold NArr.zip2 at h
  cases hs : bcastShape a.shape b.shape with
  | none => rw [hs] at h; cases h
  | some s =>
    rw [hs] at h
    cases h
    unfold bcastShape at hs
    obtain ⟨t, ht, rfl⟩ := Option.map_eq_some_iff.1 hs
    have := bcastRev_length (by simp [ha, hb]) ht
    show t.reverse.length = n
    simpa [ha] using this

theorem comp_rank (a : NArr F) (k : Nat) : Rank a.shape.length (a.comp k) := by
  intro r h
  unfold NArr.comp at h
  split at h
  · cases h
  · rename_i n hn
    split_ifs at h
    cases h
    have : a.shape ≠ [] := fun he => by simp [he] at hn
    show (a.shape.dropLast ++ [1]).length = _
    have := List.length_pos_iff.2 this
    simp
    omega

theorem comps_rank (a : NArr F) (i j : Int) : Rank a.shape.length (a.comps i j) := by
  intro r h
  unfold NArr.comps at h
  split at h
  · cases h
  · rename_i n hn
    cases h
    have : a.shape ≠ [] := fun he => by simp [he] at hn
    show (a.shape.dropLast ++ [_]).length = _
    have := List.length_pos_iff.2 this
    simp
    omega

theorem sumLast_rank [Add F] [Zero F] (a : NArr F) : Rank a.shape.length a.sumLast := by
  intro r h
  unfold NArr.sumLast at h
  split at h
  · cases h
  · rename_i n hn
    cases h
    have : a.shape ≠ [] := fun he => by simp [he] at hn
    show (a.shape.dropLast ++ [_]).length = _
    have := List.length_pos_iff.2 this
    simp
    omega

theorem assignComp_rank (a : NArr F) (k : Nat) (w : NArr F) : Rank a.shape.length (a.assignComp k w) := by
  intro r h
  unfold NArr.assignComp at h
  split at h
  · cases h
  · split_ifs at h
    cases h
    rfl

section
variable [Add F] [Sub F] [Mul F] [Div F] [Zero F] [IntCast F] {v : NArr F} {n : Nat} (hv : v.shape.length = n)
include hv

omit [Add F] [Sub F] [Mul F] [Div F] [Zero F] [IntCast F] in
theorem comp_rank' (k : Nat) : Rank n (v.comp k) := hv ▸ comp_rank v k

omit [Add F] [Sub F] [Mul F] [Div F] [Zero F] [IntCast F] in
theorem comps_rank' (i j : Int) : Rank n (v.comps i j) := hv ▸ comps_rank v i j

omit [Add F] [Sub F] [Mul F] [Div F] [Zero F] [IntCast F] in
theorem assignComp_rank' (k : Nat) (w : NArr F) : Rank n (v.assignComp k w) := hv ▸ assignComp_rank v k w

omit [Sub F] [Mul F] [Div F] [IntCast F] in
theorem sumLast_rank' : Rank n v.sumLast := hv ▸ sumLast_rank v

omit [Add F] [Sub F] [Mul F] [Div F] [Zero F] [IntCast F] in
theorem density_rank : Rank n (Tools.getDensity v) := comp_rank' hv 0

omit [Add F] [Sub F] [Mul F] [Zero F] [IntCast F] in
theorem v_rank (k : Nat) : Rank n (Tools.getV k v) :=
  (density_rank hv).bind fun _ h => (comp_rank' hv k).bind fun _ h' => zip2_rank _ h' h

omit [Add F] [Sub F] [Mul F] [Zero F] [IntCast F] in
theorem vi_rank : Rank n (Tools.getVi v) :=
  (density_rank hv).bind fun _ h => (comps_rank' hv 1 4).bind fun _ h' => zip2_rank _ h' h

omit [Add F] [Zero F] [IntCast F] in
theorem pab_rank (c i j : Nat) : Rank n (Tools.getPab c i j v) :=
  (density_rank hv).bind fun _ h1 => (v_rank hv i).bind fun _ h2 => (v_rank hv j).bind fun _ h3 =>
    (comp_rank' hv c).bind fun _ h4 => (zip2_rank _ h1 h2).bind fun _ h5 => (zip2_rank _ h5 h3).bind fun _ h6 =>
      zip2_rank _ h4 h6

omit [Add F] [IntCast F] in
theorem pij_rank : Rank n (Tools.getPij v) :=
  (comps_rank' hv 4 10).bind fun _ h0 => (pab_rank hv 4 1 1).bind fun _ _ => (pab_rank hv 5 1 2).bind fun _ _ =>
    (pab_rank hv 6 1 3).bind fun _ _ => (pab_rank hv 7 2 2).bind fun _ _ => (pab_rank hv 8 2 3).bind fun _ _ =>
    (pab_rank hv 9 3 3).bind fun _ _ => (assignComp_rank' (v := NArr.zeros _) (by exact h0) 0 _).bind fun _ h1 => (assignComp_rank' h1 1 _).bind fun _ h2 =>
    (assignComp_rank' h2 2 _).bind fun _ h3 => (assignComp_rank' h3 3 _).bind fun _ h4 =>
    (assignComp_rank' h4 4 _).bind fun _ h5 => assignComp_rank' h5 5 _

omit [Sub F] [Div F] [Zero F] [IntCast F] hv in
theorem sq3_rank {x y z : NArr F} (hx : x.shape.length = n) (hy : y.shape.length = n) (hz : z.shape.length = n) :
    Rank n (Tools.sq3 x y z) :=
  (zip2_rank _ hx hx).bind fun _ h1 => (zip2_rank _ hy hy).bind fun _ h2 => (zip2_rank _ h1 h2).bind fun _ h3 =>
    (zip2_rank _ hz hz).bind fun _ h4 => zip2_rank _ h3 h4

omit [Sub F] [Zero F] in
theorem flow_rank : Rank n (Tools.flowEnergy v) :=
  (density_rank hv).bind fun _ h0 => (v_rank hv 1).bind fun _ h1 => (v_rank hv 2).bind fun _ h2 =>
    (v_rank hv 3).bind fun _ h3 => (sq3_rank h1 h2 h3).bind fun _ h4 => zip2_rank _ (by exact h0) h4

omit [Zero F] in
theorem p_rank (gamma : F) (nm : Option Int) : Rank n (Tools.getP v gamma nm) := by
  refine Rank.bind' fun k => ?_
  split
  · exact (flow_rank hv).bind fun _ h1 => (comp_rank' hv 4).bind fun _ h2 => (zip2_rank _ h2 h1).bind fun _ h3 =>
      Rank.pure (by exact h3)
  · exact (pab_rank hv 4 1 1).bind fun _ h1 => (pab_rank hv 7 2 2).bind fun _ h2 => (pab_rank hv 9 3 3).bind fun _ h3 =>
      (zip2_rank _ h1 h2).bind fun _ h4 => (zip2_rank _ h4 h3).bind fun _ h5 => Rank.pure (by exact h5)

omit [Zero F] in
theorem ke_rank (gamma : F) (nm : Option Int) : Rank n (Tools.getKe v gamma nm) := by
  refine Rank.bind' fun k => ?_
  split
  · exact (p_rank hv gamma _).bind fun _ h1 => (comp_rank' hv 4).bind fun _ h2 => zip2_rank _ h2 (by exact h1)
  · exact flow_rank hv

omit [Zero F] in
theorem temp_rank (gamma : F) (nm : Option Int) : Rank n (Tools.getTemp v gamma nm) :=
  (density_rank hv).bind fun _ h0 => (p_rank hv gamma nm).bind fun _ h1 => zip2_rank _ h1 h0

omit [Zero F] in
theorem sound_rank (sqrt : F → F) (gamma : F) (nm : Option Int) : Rank n (Tools.getSound sqrt v gamma nm) :=
  (density_rank hv).bind fun _ h0 => (p_rank hv gamma nm).bind fun _ h1 => (zip2_rank _ (by exact h1) h0).bind fun _ h2 =>
    Rank.pure (by exact h2)

omit [Sub F] [Zero F] [IntCast F] in
theorem speed_rank (sqrt : F → F) {m : Except Err (NArr F)} (hm : Rank n m) : Rank n (Tools.speedOver sqrt v m) :=
  (v_rank hv 1).bind fun _ h1 => (v_rank hv 2).bind fun _ h2 => (v_rank hv 3).bind fun _ h3 => hm.bind fun _ h4 =>
    (sq3_rank h1 h2 h3).bind fun _ h5 => zip2_rank _ (by exact h5) h4

omit [Sub F] [Zero F] in
theorem magP_rank (mu0 : F) : Rank n (Tools.getMhdMagP v mu0) :=
  (comp_rank' hv _).bind fun _ h1 => (comp_rank' hv _).bind fun _ h2 => (comp_rank' hv _).bind fun _ h3 =>
    (sq3_rank h1 h2 h3).bind fun _ h4 => Rank.pure (by exact h4)

omit [Zero F] in
theorem mhdP_rank (gamma mu0 : F) : Rank n (Tools.getMhdP v gamma mu0) :=
  (flow_rank hv).bind fun _ h1 => (magP_rank hv mu0).bind fun _ h2 => (comp_rank' hv 4).bind fun _ h3 =>
    (zip2_rank _ h3 h1).bind fun _ h4 => (zip2_rank _ h4 h2).bind fun _ h5 => Rank.pure (by exact h5)

omit [Zero F] in
theorem mhdTemp_rank (gamma mu0 : F) : Rank n (Tools.getMhdTemp v gamma mu0) :=
  (density_rank hv).bind fun _ h0 => (mhdP_rank hv gamma mu0).bind fun _ h1 => zip2_rank _ h1 h0

omit [Zero F] in
theorem mhdSound_rank (sqrt : F → F) (gamma mu0 : F) : Rank n (Tools.getMhdSound sqrt v gamma mu0) :=
  (density_rank hv).bind fun _ h0 => (mhdP_rank hv gamma mu0).bind fun _ h1 => (zip2_rank _ (by exact h1) h0).bind fun _ h2 =>
    Rank.pure (by exact h2)

omit [Sub F] [Div F] [IntCast F] in
theorem magSq_rank (coords : List Char) : Rank n (Tools.magSq v coords) :=
  Rank.bind' fun _ => (comps_rank' hv _ _).bind fun _ h1 => Rank.bind' fun _ => (zip2_rank _ h1 h1).bind fun _ h2 =>
    sumLast_rank' h2

/-- The result of a diagnostic has as many axes as the values. -/
theorem onValues_rank (sqrt : F → F) (t : Tool F) : Rank n (onValues sqrt t v) := by
  cases t with
  | density => exact density_rank hv
  | velocity k => exact v_rank hv k
  | velocities => exact vi_rank hv
  | stress c i j => exact pab_rank hv c i j
  | tensor => exact pij_rank hv
  | pressure gamma nm => exact p_rank hv gamma nm
  | kinetic gamma nm => exact ke_rank hv gamma nm
  | temperature gamma nm => exact temp_rank hv gamma nm
  | sound gamma nm => exact sound_rank hv sqrt gamma nm
  | mach gamma nm => exact speed_rank hv sqrt (sound_rank hv sqrt gamma nm)
  | field k => exact comp_rank' hv _
  | fields => exact comps_rank' hv 5 8
  | magneticPressure mu0 => exact magP_rank hv mu0
  | mhdPressure gamma mu0 => exact mhdP_rank hv gamma mu0
  | mhdTemperature gamma mu0 => exact mhdTemp_rank hv gamma mu0
  | mhdSound gamma mu0 => exact mhdSound_rank hv sqrt gamma mu0
  | mhdMach gamma mu0 => exact speed_rank hv sqrt (mhdSound_rank hv sqrt gamma mu0)
  | squared coords => exact magSq_rank hv coords

end

/-! ### `integrate` -/

section
variable [Add F] [Sub F] [Mul F] [Div F] [Zero F] [IntCast F]
open EvCmd Calculus

omit [Sub F] [Div F] [IntCast F] in
theorem contract_rank {v w : NArr F} {ax : Nat} {dz : List F} (h : contract v ax dz = .ok w) :
    w.shape.length + 1 = v.shape.length := by
  unfold contract at h
  split at h
  · cases h
  · rename_i n hn
    split_ifs at h
    cases h
    show (v.shape.eraseIdx ax).length + 1 = _
    have := List.getElem?_eq_some_iff.1 hn
    obtain ⟨h1, -⟩ := this
    rw [List.length_eraseIdx, if_pos h1]
    omega

omit [Sub F] [Mul F] in
theorem meanAxis_rank {v w : NArr F} {ax : Nat} (h : meanAxis v ax = .ok w) : w.shape.length + 1 = v.shape.length := by
  unfold meanAxis at h
  split at h
  · cases h
  · rename_i n hn
    cases h
    show (v.shape.eraseIdx ax).length + 1 = _
    obtain ⟨h1, -⟩ := List.getElem?_eq_some_iff.1 hn
    rw [List.length_eraseIdx, if_pos h1]
    omega

omit [Sub F] in
theorem contract_fold {grid : List (NArr F)} {dz : List (List F)} : ∀ {l : List Nat} {v w : NArr F},
    l.foldlM (fun (v : NArr F) (ax : Nat) => do
      let g ← pyGet grid ax
      if 1 < g.data.length then do contract v ax (← pyGet dz ax) else meanAxis v ax) v = .ok w →
    w.shape.length + l.length = v.shape.length
  | [], v, w, h => by cases h; rfl
  | ax :: l, v, w, h => by
    rw [List.foldlM_cons] at h
    obtain ⟨u, hu, hw⟩ := bind_ok h
    have h1 := contract_fold hw
    obtain ⟨g, -, hu⟩ := bind_ok hu
    have h2 : u.shape.length + 1 = v.shape.length := by
      split at hu
      · obtain ⟨dz', -, hu⟩ := bind_ok hu
        exact contract_rank hu
      · exact meanAxis_rank hu
    simp only [List.length_cons]
    omega

omit [Sub F] [Mul F] in
theorem restore_fold {n : Nat} : ∀ {l : List Nat} {gv r : List (NArr F) × NArr F},
    l.foldlM (fun (gv : List (NArr F) × NArr F) ax =>
      if gv.1.length ≤ ax ∨ gv.2.shape.length < ax then .error .indexError
      else do
        let g ← pyGet gv.1 ax
        let m := g.data.foldl (· + ·) 0 / (((g.data.length : Nat) : Int) : F)
        return (gv.1.set ax (NArr.ofList [m]), expandDims gv.2 ax)) gv = .ok r → HasNodes gv.1 n →
    r.2.shape.length = gv.2.shape.length + l.length ∧ HasNodes r.1 n
  | [], gv, r, h, hn => by cases h; exact ⟨rfl, hn⟩
  | ax :: l, gv, r, h, hn => by
    rw [List.foldlM_cons] at h
    obtain ⟨u, hu, hw⟩ := bind_ok h
    split_ifs at hu with hc
    obtain ⟨g, -, hu⟩ := bind_ok hu
    cases hu
    have hn' : HasNodes (gv.1.set ax (NArr.ofList [g.data.foldl (· + ·) 0 / (((g.data.length : Nat) : Int) : F)])) n := by
      refine ⟨by simpa using hn.count, fun a ha => ?_⟩
      rcases List.mem_or_eq_of_mem_set ha with h | rfl
      · exact hn.node a h
      · simp [NArr.ofList]
    obtain ⟨h1, h2⟩ := restore_fold (n := n) hw hn'
    refine ⟨?_, h2⟩
    rw [h1, List.length_cons]
    show (insertAt ax 1 gv.2.shape).length + _ = _
    rw [Integ.length_insertAt _ (by omega)]
    omega

variable [Min F] [Max F]

/-- What `integrate` computes has the axes of the values, and nodes on each. -/
theorem integrate_nodes {d d' : GData F} {axis : AxisArg} {g0 g : List (NArr F)} {v w : NArr F} {n : Nat} (hg : d.grid = some g0)
    (hv : d.values = some v) (hn : HasNodes g0 n) (h : Calculus.integrate d axis false = .ok (g, w, d')) :
    w.shape.length = v.shape.length ∧ HasNodes g n := by
  unfold Calculus.integrate at h
  rw [hg, hv] at h
  obtain ⟨is, -, h⟩ := bind_ok h
  obtain ⟨axes, -, h⟩ := bind_ok h
  obtain ⟨dz, -, h⟩ := bind_ok h
  obtain ⟨u, hu, h⟩ := bind_ok h
  obtain ⟨⟨g', w'⟩, hr, h⟩ := bind_ok h
  obtain ⟨d'', -, h⟩ := bind_ok h
  cases h
  have h1 := contract_fold hu
  obtain ⟨h2, h3⟩ := restore_fold hr hn
  refine ⟨?_, h3⟩
  simp only [sortDesc, sortAsc, List.length_mergeSort] at h1 h2
  omega

theorem integrate_rejects (d : GData F) (axis : AxisArg) :
    (∀ r, Calculus.integrate d axis false = .ok r → ∀ d', d.push r.1 r.2.1 = .ok d' →
      Calculus.integrate d axis true = .ok (r.1, r.2.1, d')) ∧
    (∀ r, Calculus.integrate d axis false = .ok r → ∀ e, d.push r.1 r.2.1 = .error e →
      Calculus.integrate d axis true = .error e) ∧
    ∀ e, Calculus.integrate d axis false = .error e → Calculus.integrate d axis true = .error e := by
  unfold Calculus.integrate
  cases d.grid with
  | none => exact ⟨fun r h => (by cases h), fun r h => (by cases h), fun e h => h⟩
  | some g =>
    cases d.values with
    | none => exact ⟨fun r h => (by cases h), fun r h => (by cases h), fun e h => h⟩
    | some v =>
      simp only [bind, Except.bind, pure, Except.pure, if_true, if_false, Bool.false_eq_true]
      cases axesOf d.numDims axis with
      | error e => exact ⟨fun r h => (by cases h), fun r h => (by cases h), fun e h => h⟩
      | ok is =>
        simp only
        cases natAxes is with
        | error e => exact ⟨fun r h => (by cases h), fun r h => (by cases h), fun e h => h⟩
        | ok axes =>
          simp only
          cases Calculus.dzAll g v.shape with
          | error e => exact ⟨fun r h => (by cases h), fun r h => (by cases h), fun e h => h⟩
          | ok dz =>
            simp only
            cases Calculus.contractAll g dz axes v with
            | error e => exact ⟨fun r h => (by cases h), fun r h => (by cases h), fun e h => h⟩
            | ok w =>
              simp only
              cases Calculus.restoreAll axes (g, w) with
              | error e => exact ⟨fun r h => (by cases h), fun r h => (by cases h), fun e h => h⟩
              | ok gw =>
                simp only
                refine ⟨fun r h d' hd => ?_, fun r h e he => ?_, fun e h => (by cases h)⟩
                · cases h
                  simp only at hd
                  rw [hd]
                · cases h
                  simp only at he
                  rw [he]

end

/-! ### `select` -/

section
variable [LT F] [DecidableLT F]

theorem axesSel_length {pf : List Char → Option F} {u : Bool} : ∀ {d : Nat} {ns : List Nat} {gs : List (NArr F)}
    {zs : List (Option (IdxArg F))} {sels : List AxisSel}, axesSel pf u d ns gs zs = .ok sels →
    sels.length = ns.length ∧ ns.length ≤ gs.length
  | _, [], _, _, _, h => by cases h; simp
  | _, _ :: _, [], _, _, h => by cases h
  | d, n :: ns, g :: gs, zs, sels, h => by
    obtain ⟨a, -, h⟩ := bind_ok h
    obtain ⟨as, ha, h⟩ := bind_ok h
    cases h
    obtain ⟨h1, h2⟩ := axesSel_length ha
    simp only [List.length_cons]
    omega

omit [LT F] [DecidableLT F] in
theorem cutGrid_length {u : Bool} {gsel : List (List Nat)} {grid : List (NArr F)} (h : gsel.length ≤ grid.length) :
    (cutGrid u gsel grid).length = grid.length := by
  unfold cutGrid
  split <;> simp <;> omega

variable [Min F] [Max F]

/-- The grid `select` computes has an array for every axis of the values. -/
theorem select_rank {pf : List Char → Option F} {d d' : GData F} {comp : Option (IdxArg F)} {zs : List (Option (IdxArg F))}
    {g : List (NArr F)} {v : NArr F} (h : Pgkyl.select pf d comp zs false = .ok (g, v, d')) :
    v.shape ≠ [] ∧ v.shape.length - 1 ≤ g.length := by
  unfold Pgkyl.select at h
  split at h
  · rename_i g0 gs values hg hv
    simp only [if_false, Bool.false_eq_true] at h
    split_ifs at h
    obtain ⟨sels, hs, h⟩ := bind_ok h
    obtain ⟨cs, -, h⟩ := bind_ok h
    cases h
    obtain ⟨h1, h2⟩ := axesSel_length hs
    rw [cutGrid_length (by simpa [h1] using h2)]
    refine ⟨by simp, ?_⟩
    simp only [NArr.ix_shape, List.length_map, List.length_append, List.length_cons, List.length_nil]
    simp only [List.length_cons] at h2
    omega
  · cases h

theorem select_rejects (pf : List Char → Option F) (d : GData F) (comp : Option (IdxArg F)) (zs : List (Option (IdxArg F))) :
    (∀ r, Pgkyl.select pf d comp zs false = .ok r → ∀ d', d.push r.1 r.2.1 = .ok d' →
      Pgkyl.select pf d comp zs true = .ok (r.1, r.2.1, d')) ∧
    (∀ r, Pgkyl.select pf d comp zs false = .ok r → ∀ e, d.push r.1 r.2.1 = .error e →
      Pgkyl.select pf d comp zs true = .error e) ∧
    ∀ e, Pgkyl.select pf d comp zs false = .error e → Pgkyl.select pf d comp zs true = .error e := by
  unfold Pgkyl.select
  split
  · rename_i g0 gs values hg hv
    simp only [bind, Except.bind, pure, Except.pure, if_true, if_false, Bool.false_eq_true]
    split_ifs with hc
    · exact ⟨fun r h => (by cases h), fun r h => (by cases h), fun e h => h⟩
    · cases axesSel pf (g0.shape.length == 1) 0 values.shape.dropLast (g0 :: gs) (zs.take 6) with
      | error e => exact ⟨fun r h => (by cases h), fun r h => (by cases h), fun e h => h⟩
      | ok sels =>
        simp only
        cases compSel pf (values.shape.getLastD 0) comp with
        | error e => exact ⟨fun r h => (by cases h), fun r h => (by cases h), fun e h => h⟩
        | ok cs =>
          simp only
          refine ⟨fun r h d' hd => ?_, fun r h e he => ?_, fun e h => (by cases h)⟩
          · cases h
            simp only at hd
            rw [hd]
          · cases h
            simp only at he
            rw [he]
  · exact ⟨fun r h => (by cases h), fun r h => (by cases h), fun e h => h⟩

end

section
variable [Min F] [Max F]

omit [Max F] in
theorem minima_empty : ∀ {n : Nat} {g : List (NArr F)}, n ≤ g.length → (∃ a ∈ g.take n, a.data = []) →
    GData.minima n g = .error .valueError
  | 0, g, _, ⟨a, ha, _⟩ => by simp at ha
  | n + 1, [], h, _ => by simp at h
  | n + 1, b :: g, h, ⟨a, ha, hd⟩ => by
    unfold GData.minima
    cases hm : b.data.min? with
    | none => rfl
    | some m =>
      rw [List.take_succ_cons, List.mem_cons] at ha
      rcases ha with rfl | ha
      · rw [hd] at hm
        cases hm
      · simp only [minima_empty (n := n) (by simpa using h) ⟨a, ha, hd⟩, bind, Except.bind]

theorem push_empty {d : GData F} {g : List (NArr F)} {v : NArr F} (hv : v.shape ≠ []) (hl : v.shape.length - 1 ≤ g.length)
    (h : ∃ a ∈ g.take (v.shape.length - 1), a.data = []) : d.push g v = .error .valueError := by
  obtain ⟨nc, hnc⟩ : ∃ nc, v.shape.getLast? = some nc := ⟨_, List.getLast?_eq_some_getLast hv⟩
  unfold GData.push
  rw [GData.setValues_ok hnc]
  show GData.setGrid _ g = _
  unfold GData.setGrid
  have : GData.numDims { d with
        values := some v
        ctx := { d.ctx with cells := some v.shape.dropLast, numComps := some nc } } = v.shape.length - 1 := by
    simp [GData.numDims, GData.numCells]
  rw [this, minima_empty hl h]
  rfl

end

section
variable [LT F] [DecidableLT F]

theorem bisectLeft_le (a : List F) (v : F) : ∀ lo hi : Nat, lo ≤ hi → bisectLeft a v lo hi ≤ hi := by
  intro lo hi
  induction hn : hi - lo using Nat.strong_induction_on generalizing lo hi with
  | _ n ih =>
    intro hle
    unfold bisectLeft
    split_ifs with h
    · simp only
      split
      · split_ifs
        · exact ih _ (by omega) (lo + (hi - lo) / 2 + 1) hi rfl (by omega)
        · exact (ih _ (by omega) lo (lo + (hi - lo) / 2) rfl (by omega)).trans (by omega)
      · exact hle
    · exact hle

theorem searchsorted_le (a : List F) (v : F) : searchsorted a v ≤ a.length := bisectLeft_le a v 0 a.length (Nat.zero_le _)

/-- A coordinate, on an axis with a node more than there are cells, is looked up in one of the cells. -/
theorem coordinate_cell {pf : List Char → Option F} {a : List F} {n : Nat} (ha : a.length = n + 1) (hn : 0 < n) (d : Nat) (x : F)
    {s : AxisSel} (h : axisSel pf true d (NArr.ofList a) n (some (.float x)) = .ok s) :
    ∃ i, i < n ∧ s.g = List.range' i 2 := by
  have hm : (n == a.length) = false := by simp [ha]
  obtain ⟨i, hi, hl⟩ : ∃ i : Nat, i < n ∧ findNearestIndex (some (NArr.ofList a)) x = .ok (i : Int) := by
    have hle := searchsorted_le a x
    simp only [findNearestIndex, searchArr, lenArr, NArr.len, NArr.ofList, List.length_cons, List.length_nil, bind, Except.bind,
      pure, Except.pure, if_true]
    simp only [ha]
    split_ifs with h1 h2
    · exact ⟨n - 1, by omega, by congr 1; omega⟩
    · exact ⟨searchsorted a x - 1, by omega, by congr 1; omega⟩
    · exact ⟨searchsorted a x, by omega, rfl⟩
  simp only [axisSel, gridLen, NArr.ofList, if_true, List.getElem?_cons_zero, bind, Except.bind, pure, Except.pure, hm, idxParser,
    lookup, Bool.false_eq_true, if_false] at h
  have hl' : findNearestIndex (some ⟨[a.length], a⟩) x = .ok (i : Int) := hl
  rw [hl'] at h
  cases h
  refine ⟨i, hi, ?_⟩
  show slicePos a.length (i : Int) ((i : Int) + 2) = _
  have := slicePos_nat a.length i (i + 2)
  rw [show ((i + 2 : Nat) : Int) = (i : Int) + 2 from by omega] at this
  rw [this, ha]
  congr 1
  omega

end
end Pgkyl.Failing
