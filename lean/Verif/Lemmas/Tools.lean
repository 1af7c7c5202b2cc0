import Verif.Model.Tools
import Verif.Lemmas.CompOps
import Verif.Lemmas.Idx
import Mathlib.Algebra.Field.Basic
import Mathlib.Tactic.FieldSimp
import Mathlib.Tactic.Ring
/-! # What the diagnostics compute, cell by cell -/

namespace Pgkyl.Tools
open Spec

theorem ok_bind {α β : Type} (a : α) (f : α → Except Err β) : ((.ok a : Except Err α) >>= f) = f a := rfl

section
variable {F : Type} [_root_.Field F] {cells : List Nat} {m : Nat} {v w : NArr F} {q p b r : List Nat → Nat → F}

omit [_root_.Field F] in
theorem density_gives (h : IsField v cells m q) (hm : 1 ≤ m) : Gives (getDensity v) cells 1 fun i _ => q i 0 :=
  gives_comp h (by omega)

theorem getV_gives (h : IsField v cells m q) {k : Nat} (hm : 1 ≤ m) (hk : k < m) :
    Gives (getV k v) cells 1 fun i _ => q i k / q i 0 := by
  unfold getV
  exact gives_bind (density_gives h hm) fun rho hr => gives_bind (gives_comp h hk) fun x hx => gives_zip _ hx hr

theorem getVi_gives (h : IsField v cells m q) (hm : 4 ≤ m) :
    Gives (getVi v) cells 3 fun i c => q i (1 + c) / q i 0 := by
  unfold getVi
  exact gives_bind (density_gives h (by omega)) fun rho hr =>
    gives_bind (gives_comps h (i := 1) (j := 4) hm (by omega)) fun x hx => gives_zip_one (g := fun i _ => q i 0) _ hx hr

theorem getPab_gives (h : IsField v cells m q) {c x y : Nat} (hm : 1 ≤ m) (hc : c < m) (hx : x < m) (hy : y < m) :
    Gives (getPab c x y v) cells 1 fun i _ => q i c - q i 0 * (q i x / q i 0) * (q i y / q i 0) := by
  unfold getPab
  refine gives_bind (density_gives h hm) fun rho hr => gives_bind (getV_gives h hm hx) fun a ha =>
    gives_bind (getV_gives h hm hy) fun b hb => gives_bind (gives_comp h hc) fun t ht => ?_
  refine gives_bind (gives_zip _ hr ha) fun u hu => gives_bind (gives_zip _ hu hb) fun s hs => gives_zip _ ht hs

theorem sq3_gives {a b c : NArr F} {f g k : List Nat → Nat → F} (ha : IsField a cells 1 f) (hb : IsField b cells 1 g)
    (hc : IsField c cells 1 k) :
    Gives (sq3 a b c) cells 1 fun i j => f i j * f i j + g i j * g i j + k i j * k i j := by
  unfold sq3
  exact gives_bind (gives_zip _ ha ha) fun x hx => gives_bind (gives_zip _ hb hb) fun y hy =>
    gives_bind (gives_zip _ hx hy) fun z hz => gives_bind (gives_zip _ hc hc) fun u hu => gives_zip _ hz hu

theorem flowEnergy_gives (h : IsField v cells m q) (hm : 4 ≤ m) :
    Gives (flowEnergy v) cells 1 fun i _ => lit 1 / lit 2 * q i 0 *
      (q i 1 / q i 0 * (q i 1 / q i 0) + q i 2 / q i 0 * (q i 2 / q i 0) + q i 3 / q i 0 * (q i 3 / q i 0)) := by
  unfold flowEnergy
  refine gives_bind (density_gives h (by omega)) fun rho hr =>
    gives_bind (getV_gives h (k := 1) (by omega) (by omega)) fun x hx =>
    gives_bind (getV_gives h (k := 2) (by omega) (by omega)) fun y hy =>
    gives_bind (getV_gives h (k := 3) (by omega) (by omega)) fun z hz =>
    gives_bind (sq3_gives hx hy hz) fun s hs => gives_zip _ (isField_map1 hr _) hs

/-- The argument `num_moms` (or the number of components) selects five moments. -/
def Five (m : Nat) (nm : Option Int) : Prop := nm = some 5 ∨ nm = none ∧ m = 5

/-- The argument `num_moms` (or the number of components) selects ten moments. -/
def Ten (m : Nat) (nm : Option Int) : Prop := (∃ n, nm = some n ∧ n ≠ 5) ∨ nm = none ∧ m = 10

omit [_root_.Field F] in
theorem numMoms_five (h : IsField v cells m q) {nm : Option Int} (hn : Five m nm) : numMoms v nm = .ok 5 := by
  rcases hn with rfl | ⟨rfl, rfl⟩
  · rfl
  · simp [numMoms, h.last]

omit [_root_.Field F] in
theorem numMoms_ten (h : IsField v cells m q) {nm : Option Int} (hn : Ten m nm) : ∃ n, numMoms v nm = .ok n ∧ n ≠ 5 := by
  rcases hn with ⟨n, rfl, hn⟩ | ⟨rfl, rfl⟩
  · exact ⟨n, rfl, hn⟩
  · exact ⟨10, by simp [numMoms, h.last], by decide⟩

theorem getP_five (h : IsField v cells m q) (hm : 5 ≤ m) (gamma : F) {nm : Option Int} (hn : Five m nm) :
    Gives (getP v gamma nm) cells 1 fun i _ => (gamma - lit 1) * (q i 4 - lit 1 / lit 2 * q i 0 *
      (q i 1 / q i 0 * (q i 1 / q i 0) + q i 2 / q i 0 * (q i 2 / q i 0) + q i 3 / q i 0 * (q i 3 / q i 0))) := by
  unfold getP
  rw [numMoms_five h hn]
  rw [ok_bind, if_pos rfl]
  exact gives_bind (flowEnergy_gives h (by omega)) fun ke hk => gives_bind (gives_comp h (by omega)) fun e he =>
    gives_bind (gives_zip _ he hk) fun d hd => gives_pure (isField_map1 hd _)

theorem getP_ten (h : IsField v cells m q) (hm : 10 ≤ m) (gamma : F) {nm : Option Int} (hn : Ten m nm) :
    Gives (getP v gamma nm) cells 1 fun i _ => ((q i 4 - q i 0 * (q i 1 / q i 0) * (q i 1 / q i 0)) +
      (q i 7 - q i 0 * (q i 2 / q i 0) * (q i 2 / q i 0)) + (q i 9 - q i 0 * (q i 3 / q i 0) * (q i 3 / q i 0))) / lit 3 := by
  unfold getP
  obtain ⟨n, hn, hne⟩ := numMoms_ten h hn
  rw [hn]
  rw [ok_bind, if_neg hne]
  exact gives_bind (getPab_gives h (by omega) (by omega) (by omega) (by omega)) fun x hx =>
    gives_bind (getPab_gives h (by omega) (by omega) (by omega) (by omega)) fun y hy =>
    gives_bind (getPab_gives h (by omega) (by omega) (by omega) (by omega)) fun z hz =>
    gives_bind (gives_zip _ hx hy) fun s hs => gives_bind (gives_zip _ hs hz) fun t ht =>
    gives_pure (isField_map1 ht _)

theorem getKe_five (h : IsField v cells m q) (hm : 5 ≤ m) (gamma : F) {nm : Option Int} (hn : Five m nm)
    {P : List Nat → Nat → F} (hp : Gives (getP v gamma (some 5)) cells 1 P) :
    Gives (getKe v gamma nm) cells 1 fun i _ => q i 4 - P i 0 / (gamma - lit 1) := by
  unfold getKe
  rw [numMoms_five h hn]
  rw [ok_bind, if_pos rfl]
  exact Gives.congr (gives_bind hp fun x hx => gives_bind (gives_comp h (by omega)) fun e he =>
    gives_zip _ he (isField_map1 hx _)) fun i _ c hc => by
      obtain rfl : c = 0 := by omega
      rfl

theorem getKe_ten (h : IsField v cells m q) (hm : 4 ≤ m) (gamma : F) {nm : Option Int} (hn : Ten m nm) :
    Gives (getKe v gamma nm) cells 1 fun i _ => lit 1 / lit 2 * q i 0 *
      (q i 1 / q i 0 * (q i 1 / q i 0) + q i 2 / q i 0 * (q i 2 / q i 0) + q i 3 / q i 0 * (q i 3 / q i 0)) := by
  unfold getKe
  obtain ⟨n, hn, hne⟩ := numMoms_ten h hn
  rw [hn]
  rw [ok_bind, if_neg hne]
  exact flowEnergy_gives h hm

theorem getTemp_gives (h : IsField v cells m q) (hm : 1 ≤ m) {gamma : F} {nm : Option Int} {P : List Nat → Nat → F}
    (hp : Gives (getP v gamma nm) cells 1 P) : Gives (getTemp v gamma nm) cells 1 fun i c => P i c / q i 0 := by
  unfold getTemp
  exact gives_bind (density_gives h hm) fun rho hr => gives_bind hp fun x hx => gives_zip _ hx hr

theorem getSound_gives (sqrt : F → F) (h : IsField v cells m q) (hm : 1 ≤ m) {gamma : F} {nm : Option Int}
    {P : List Nat → Nat → F} (hp : Gives (getP v gamma nm) cells 1 P) :
    Gives (getSound sqrt v gamma nm) cells 1 fun i c => sqrt (gamma * P i c / q i 0) := by
  unfold getSound
  exact gives_bind (density_gives h hm) fun rho hr => gives_bind hp fun x hx =>
    gives_bind (gives_zip _ (isField_map1 hx _) hr) fun t ht => gives_pure (isField_map1 ht _)

theorem speedOver_gives (sqrt : F → F) (h : IsField v cells m q) (hm : 4 ≤ m) {cs : Except Err (NArr F)}
    {C : List Nat → Nat → F} (hc : Gives cs cells 1 C) :
    Gives (speedOver sqrt v cs) cells 1 fun i c => sqrt (q i 1 / q i 0 * (q i 1 / q i 0) +
      q i 2 / q i 0 * (q i 2 / q i 0) + q i 3 / q i 0 * (q i 3 / q i 0)) / C i c := by
  unfold speedOver
  exact gives_bind (getV_gives h (k := 1) (by omega) (by omega)) fun x hx =>
    gives_bind (getV_gives h (k := 2) (by omega) (by omega)) fun y hy =>
    gives_bind (getV_gives h (k := 3) (by omega) (by omega)) fun z hz =>
    gives_bind hc fun c hc => gives_bind (sq3_gives hx hy hz) fun s hs => gives_zip _ (isField_map1 hs _) hc

theorem getMach_gives (sqrt : F → F) (h : IsField v cells m q) (hm : 4 ≤ m) {gamma : F} {nm : Option Int}
    {C : List Nat → Nat → F} (hc : Gives (getSound sqrt v gamma nm) cells 1 C) :
    Gives (getMach sqrt v gamma nm) cells 1 fun i c => sqrt (q i 1 / q i 0 * (q i 1 / q i 0) +
      q i 2 / q i 0 * (q i 2 / q i 0) + q i 3 / q i 0 * (q i 3 / q i 0)) / C i c := by
  unfold getMach
  exact speedOver_gives sqrt h hm hc

theorem magP_gives (h : IsField v cells m q) (hm : 8 ≤ m) (mu0 : F) :
    Gives (getMhdMagP v mu0) cells 1 fun i _ =>
      lit 1 / lit 2 * (q i 5 * q i 5 + q i 6 * q i 6 + q i 7 * q i 7) / mu0 := by
  unfold getMhdMagP getMhdB
  exact gives_bind (gives_comp h (by omega)) fun x hx => gives_bind (gives_comp h (by omega)) fun y hy =>
    gives_bind (gives_comp h (by omega)) fun z hz => gives_bind (sq3_gives hx hy hz) fun s hs =>
    gives_pure (isField_map1 (isField_map1 hs _) _)

theorem mhdP_gives (h : IsField v cells m q) (hm : 8 ≤ m) (gamma mu0 : F) :
    Gives (getMhdP v gamma mu0) cells 1 fun i _ => (gamma - lit 1) * (q i 4 - lit 1 / lit 2 * q i 0 *
      (q i 1 / q i 0 * (q i 1 / q i 0) + q i 2 / q i 0 * (q i 2 / q i 0) + q i 3 / q i 0 * (q i 3 / q i 0)) -
      lit 1 / lit 2 * (q i 5 * q i 5 + q i 6 * q i 6 + q i 7 * q i 7) / mu0) := by
  unfold getMhdP
  exact gives_bind (flowEnergy_gives h (by omega)) fun ke hk => gives_bind (magP_gives h hm mu0) fun mp hp =>
    gives_bind (gives_comp h (by omega)) fun e he => gives_bind (gives_zip _ he hk) fun d hd =>
    gives_bind (gives_zip _ hd hp) fun t ht => gives_pure (isField_map1 ht _)

theorem mhdTemp_gives (h : IsField v cells m q) (hm : 1 ≤ m) {gamma mu0 : F} {P : List Nat → Nat → F}
    (hp : Gives (getMhdP v gamma mu0) cells 1 P) : Gives (getMhdTemp v gamma mu0) cells 1 fun i c => P i c / q i 0 := by
  unfold getMhdTemp
  exact gives_bind (density_gives h hm) fun rho hr => gives_bind hp fun x hx => gives_zip _ hx hr

theorem mhdSound_gives (sqrt : F → F) (h : IsField v cells m q) (hm : 1 ≤ m) {gamma mu0 : F} {P : List Nat → Nat → F}
    (hp : Gives (getMhdP v gamma mu0) cells 1 P) :
    Gives (getMhdSound sqrt v gamma mu0) cells 1 fun i c => sqrt (gamma * P i c / q i 0) := by
  unfold getMhdSound
  exact gives_bind (density_gives h hm) fun rho hr => gives_bind hp fun x hx =>
    gives_bind (gives_zip _ (isField_map1 hx _) hr) fun t ht => gives_pure (isField_map1 ht _)

theorem mhdMach_gives (sqrt : F → F) (h : IsField v cells m q) (hm : 4 ≤ m) {gamma mu0 : F} {C : List Nat → Nat → F}
    (hc : Gives (getMhdSound sqrt v gamma mu0) cells 1 C) :
    Gives (getMhdMach sqrt v gamma mu0) cells 1 fun i c => sqrt (q i 1 / q i 0 * (q i 1 / q i 0) +
      q i 2 / q i 0 * (q i 2 / q i 0) + q i 3 / q i 0 * (q i 3 / q i 0)) / C i c := by
  unfold getMhdMach
  exact speedOver_gives sqrt h hm hc

/-! ### The pressure tensor -/

theorem getPij_gives (h : IsField v cells m q) (hm : 10 ≤ m) (hl : LeadingOnes cells) :
    Gives (getPij v) cells 6 fun i c => match c with
      | 0 => q i 4 - q i 0 * (q i 1 / q i 0) * (q i 1 / q i 0)
      | 1 => q i 5 - q i 0 * (q i 1 / q i 0) * (q i 2 / q i 0)
      | 2 => q i 6 - q i 0 * (q i 1 / q i 0) * (q i 3 / q i 0)
      | 3 => q i 7 - q i 0 * (q i 2 / q i 0) * (q i 2 / q i 0)
      | 4 => q i 8 - q i 0 * (q i 2 / q i 0) * (q i 3 / q i 0)
      | _ => q i 9 - q i 0 * (q i 3 / q i 0) * (q i 3 / q i 0) := by
  unfold getPij
  refine gives_bind (gives_comps h (i := 4) (j := 10) hm (by omega)) fun s hs => ?_
  refine gives_bind (getPab_gives h (by omega) (by omega) (by omega) (by omega)) fun xx hxx => ?_
  refine gives_bind (getPab_gives h (by omega) (by omega) (by omega) (by omega)) fun xy hxy => ?_
  refine gives_bind (getPab_gives h (by omega) (by omega) (by omega) (by omega)) fun xz hxz => ?_
  refine gives_bind (getPab_gives h (by omega) (by omega) (by omega) (by omega)) fun yy hyy => ?_
  refine gives_bind (getPab_gives h (by omega) (by omega) (by omega) (by omega)) fun yz hyz => ?_
  refine gives_bind (getPab_gives h (by omega) (by omega) (by omega) (by omega)) fun zz hzz => ?_
  rw [hs.shape]
  refine gives_bind (gives_assign_squeeze (isField_zeros cells _) (by omega) hxx hl) fun o0 h0 => ?_
  refine gives_bind (gives_assign_squeeze h0 (by omega) hxy hl) fun o1 h1 => ?_
  refine gives_bind (gives_assign_squeeze h1 (by omega) hxz hl) fun o2 h2 => ?_
  refine gives_bind (gives_assign_squeeze h2 (by omega) hyy hl) fun o3 h3 => ?_
  refine gives_bind (gives_assign_squeeze h3 (by omega) hyz hl) fun o4 h4 => ?_
  refine (gives_assign_squeeze h4 (by omega) hzz hl).congr fun i hi c hc => ?_
  match c, hc with
  | 0, _ => rfl
  | 1, _ => rfl
  | 2, _ => rfl
  | 3, _ => rfl
  | 4, _ => rfl
  | 5, _ => rfl

theorem getPij_fails (h : IsField v cells m q) (hm : 10 ≤ m) (hl : ¬ LeadingOnes cells) :
    getPij v = .error .valueError := by
  obtain ⟨s, e, hs⟩ := gives_comps h (i := 4) (j := 10) hm (by omega)
  obtain ⟨xx, e1, hxx⟩ := getPab_gives h (c := 4) (x := 1) (y := 1) (by omega) (by omega) (by omega) (by omega)
  obtain ⟨xy, e2, -⟩ := getPab_gives h (c := 5) (x := 1) (y := 2) (by omega) (by omega) (by omega) (by omega)
  obtain ⟨xz, e3, -⟩ := getPab_gives h (c := 6) (x := 1) (y := 3) (by omega) (by omega) (by omega) (by omega)
  obtain ⟨yy, e4, -⟩ := getPab_gives h (c := 7) (x := 2) (y := 2) (by omega) (by omega) (by omega) (by omega)
  obtain ⟨yz, e5, -⟩ := getPab_gives h (c := 8) (x := 2) (y := 3) (by omega) (by omega) (by omega) (by omega)
  obtain ⟨zz, e6, -⟩ := getPab_gives h (c := 9) (x := 3) (y := 3) (by omega) (by omega) (by omega) (by omega)
  have e' : v.comps 4 10 = .ok s := e
  have := assign_squeeze_fails (k := 0) (isField_zeros (F := F) cells 6) (by omega) hxx hl
  simp only [getPij, e', e1, e2, e3, e4, e5, e6, bind, Except.bind, hs.shape]
  rw [show 10 - 4 = 6 from rfl, this]

/-! ### Squared magnitude -/

theorem coordBounds_dec (i j : Nat) : coordBounds (dec i ++ ':' :: dec j) = .ok ((i : Int), (j : Int)) := by
  have : splitOn ':' (dec i ++ ':' :: dec j) = [dec i, dec j] := by
    have := splitOn_joinWith (c := ':') [dec i, dec j] (by simp) (by
      intro p hp
      simp only [List.mem_cons, List.not_mem_nil, or_false] at hp
      rcases hp with rfl | rfl <;> exact dec_colon _)
    simpa [joinWith] using this
  simp [coordBounds, this, pyInt_dec]

theorem magSq_gives (h : IsField v cells m q) {x y : Nat} (hxy : x < y) (hy : y ≤ m) :
    Gives (magSq v (dec x ++ ':' :: dec y)) cells 1 fun i _ =>
      ((List.range (y - x)).map fun c => q i (x + c) * q i (x + c)).sum := by
  unfold magSq
  simp only [coordBounds_dec, bind, Except.bind]
  refine gives_bind (gives_comps h hy (by omega)) fun w hw => plain_gives_bind (gives_compFlat hw (by omega)) fun _ _ =>
    gives_bind (gives_zip _ hw hw) fun s hs => gives_sumLast hs

theorem magSq_three (h : IsField v cells m q) (hm : 3 ≤ m) :
    Gives (magSq v) cells 1 fun i _ => q i 0 * q i 0 + q i 1 * q i 1 + q i 2 * q i 2 := by
  refine (magSq_gives h (x := 0) (y := 3) (by omega) hm).congr fun i _ c _ => ?_
  simp [List.range_succ, add_assoc]

/-! ### Parallel and perpendicular pressure -/

/-- `b·P·b` for the tensor with components xx, xy, xz, yy, yz, zz. -/
def quad (p b : Nat → F) : F :=
  b 0 * b 0 * p 0 + b 1 * b 1 * p 3 + b 2 * b 2 * p 5 + lit 2 * (b 0 * b 1 * p 1 + b 0 * b 2 * p 2 + b 1 * b 2 * p 4)

/-- The square of the vector. -/
def nsq (b : Nat → F) : F := b 0 * b 0 + b 1 * b 1 + b 2 * b 2

theorem pPar_gives (hp : IsField v cells 6 p) {n : Nat} (hn : 3 ≤ n) (hb : IsField w cells n b) :
    Gives (getPPar v w) cells 1 fun i _ => quad (p i) (b i) / nsq (b i) := by
  unfold getPPar
  refine gives_bind (gives_comp hp (by omega)) fun xx hxx => gives_bind (gives_comp hp (by omega)) fun xy hxy =>
    gives_bind (gives_comp hp (by omega)) fun xz hxz => gives_bind (gives_comp hp (by omega)) fun yy hyy =>
    gives_bind (gives_comp hp (by omega)) fun yz hyz => gives_bind (gives_comp hp (by omega)) fun zz hzz =>
    gives_bind (gives_comp hb (by omega)) fun bx hbx => gives_bind (gives_comp hb (by omega)) fun b_y hby =>
    gives_bind (gives_comp hb (by omega)) fun bz hbz => gives_bind (magSq_three hb hn) fun mm hmm => ?_
  refine gives_bind (gives_zip _ hbx hbx) fun t1 h1 => gives_bind (gives_zip _ h1 hxx) fun t2 h2 =>
    gives_bind (gives_zip _ hby hby) fun t3 h3 => gives_bind (gives_zip _ h3 hyy) fun t4 h4 =>
    gives_bind (gives_zip _ h2 h4) fun t5 h5 => gives_bind (gives_zip _ hbz hbz) fun t6 h6 =>
    gives_bind (gives_zip _ h6 hzz) fun t7 h7 => gives_bind (gives_zip _ h5 h7) fun t8 h8 => ?_
  refine gives_bind (gives_zip _ hbx hby) fun s1 k1 => gives_bind (gives_zip _ k1 hxy) fun s2 k2 =>
    gives_bind (gives_zip _ hbx hbz) fun s3 k3 => gives_bind (gives_zip _ k3 hxz) fun s4 k4 =>
    gives_bind (gives_zip _ k2 k4) fun s5 k5 => gives_bind (gives_zip _ hby hbz) fun s6 k6 =>
    gives_bind (gives_zip _ k6 hyz) fun s7 k7 => gives_bind (gives_zip _ k5 k7) fun s8 k8 => ?_
  exact gives_bind (gives_zip _ h8 (isField_map1 k8 _)) fun u hu => gives_zip _ hu hmm

theorem pPerp_gives (hp : IsField v cells 6 p) {n : Nat} (hn : 3 ≤ n) (hb : IsField w cells n b) :
    Gives (getPPerp v w) cells 1 fun i _ => (p i 0 + p i 3 + p i 5 - quad (p i) (b i) / nsq (b i)) / lit 2 := by
  unfold getPPerp
  exact gives_bind (gives_comp hp (by omega)) fun xx hxx => gives_bind (gives_comp hp (by omega)) fun yy hyy =>
    gives_bind (gives_comp hp (by omega)) fun zz hzz => gives_bind (pPar_gives hp hn hb) fun pp hpp =>
    gives_bind (gives_zip _ hxx hyy) fun s hs => gives_bind (gives_zip _ hs hzz) fun t ht =>
    gives_bind (gives_zip _ ht hpp) fun u hu => gives_pure (isField_map1 hu _)

theorem swisdak_gives (sqrt : F → F) (hp : IsField v cells 6 p) {P : List Nat → Nat → F} (hP : Gives (getPPar v w) cells 1 P) :
    Gives (agyroSwisdak sqrt v w) cells 1 fun i c => sqrt (lit 1 - lit 4 * (p i 0 * p i 3 + p i 0 * p i 5 + p i 3 * p i 5 -
      (p i 1 * p i 1 + p i 2 * p i 2 + p i 4 * p i 4)) / ((p i 0 + p i 3 + p i 5 - P i c) *
      (p i 0 + p i 3 + p i 5 + lit 3 * P i c))) := by
  unfold agyroSwisdak
  refine gives_bind (gives_comp hp (by omega)) fun xx hxx => gives_bind (gives_comp hp (by omega)) fun xy hxy =>
    gives_bind (gives_comp hp (by omega)) fun xz hxz => gives_bind (gives_comp hp (by omega)) fun yy hyy =>
    gives_bind (gives_comp hp (by omega)) fun yz hyz => gives_bind (gives_comp hp (by omega)) fun zz hzz =>
    gives_bind hP fun pp hpp => ?_
  refine gives_bind (gives_zip _ hxx hyy) fun t1 h1 => gives_bind (gives_zip _ h1 hzz) fun i1 hi1 => ?_
  refine gives_bind (gives_zip _ hxx hyy) fun s1 k1 => gives_bind (gives_zip _ hxx hzz) fun s2 k2 =>
    gives_bind (gives_zip _ k1 k2) fun s3 k3 => gives_bind (gives_zip _ hyy hzz) fun s4 k4 =>
    gives_bind (gives_zip _ k3 k4) fun s5 k5 => gives_bind (gives_zip _ hxy hxy) fun s6 k6 =>
    gives_bind (gives_zip _ hxz hxz) fun s7 k7 => gives_bind (gives_zip _ k6 k7) fun s8 k8 =>
    gives_bind (gives_zip _ hyz hyz) fun s9 k9 => gives_bind (gives_zip _ k8 k9) fun s10 k10 =>
    gives_bind (gives_zip _ k5 k10) fun i2 hi2 => ?_
  exact gives_bind (gives_zip _ hi1 hpp) fun d1 hd1 => gives_bind (gives_zip _ hi1 (isField_map1 hpp _)) fun d2 hd2 =>
    gives_bind (gives_zip _ hd1 hd2) fun d hd => gives_bind (gives_zip _ (isField_map1 hi2 _) hd) fun e he =>
    gives_pure (isField_map1 (isField_map1 he _) _)

theorem nonGyro_gives (delta : F) {pab pp pe ba bb mm : NArr F} {f1 f2 f3 f4 f5 f6 : List Nat → Nat → F}
    (h1 : IsField pab cells 1 f1) (h2 : IsField pp cells 1 f2) (h3 : IsField pe cells 1 f3) (h4 : IsField ba cells 1 f4)
    (h5 : IsField bb cells 1 f5) (h6 : IsField mm cells 1 f6) :
    Gives (nonGyro delta pab pp pe ba bb mm) cells 1 fun i c =>
      f1 i c - (f2 i c * f4 i c * f5 i c / f6 i c + f3 i c * (delta - f4 i c * f5 i c / f6 i c)) := by
  unfold nonGyro
  exact gives_bind (gives_zip _ h2 h4) fun t1 k1 => gives_bind (gives_zip _ k1 h5) fun t2 k2 =>
    gives_bind (gives_zip _ k2 h6) fun t3 k3 => gives_bind (gives_zip _ h4 h5) fun t4 k4 =>
    gives_bind (gives_zip _ k4 h6) fun t5 k5 => gives_bind (gives_zip _ h3 (isField_map1 k5 _)) fun t6 k6 =>
    gives_bind (gives_zip _ k3 k6) fun t7 k7 => gives_zip _ h1 k7

theorem frobenius_gives (sqrt : F → F) (hp : IsField v cells 6 p) {n : Nat} (hn : 3 ≤ n) (hb : IsField w cells n b)
    {P Q : List Nat → F} (hP : Gives (getPPar v w) cells 1 fun i _ => P i)
    (hQ : Gives (getPPerp v w) cells 1 fun i _ => Q i) :
    ∃ N : F → F → F → F → List Nat → F,
      N = (fun delta pab ba bb i => pab - (P i * ba * bb / nsq (b i) + Q i * (delta - ba * bb / nsq (b i)))) ∧
    Gives (agyroFrobenius sqrt v w) cells 1 fun i _ => sqrt (N (lit 1) (p i 0) (b i 0) (b i 0) i * N (lit 1) (p i 0) (b i 0) (b i 0) i +
      lit 2 * (N (lit 0) (p i 1) (b i 0) (b i 1) i * N (lit 0) (p i 1) (b i 0) (b i 1) i) +
      lit 2 * (N (lit 0) (p i 2) (b i 0) (b i 2) i * N (lit 0) (p i 2) (b i 0) (b i 2) i) +
      N (lit 1) (p i 3) (b i 1) (b i 1) i * N (lit 1) (p i 3) (b i 1) (b i 1) i +
      lit 2 * (N (lit 0) (p i 4) (b i 1) (b i 2) i * N (lit 0) (p i 4) (b i 1) (b i 2) i) +
      N (lit 1) (p i 5) (b i 2) (b i 2) i * N (lit 1) (p i 5) (b i 2) (b i 2) i) /
      sqrt (lit 2 * (Q i * Q i) + lit 4 * P i * Q i) := by
  refine ⟨_, rfl, ?_⟩
  unfold agyroFrobenius
  refine gives_bind (gives_comp hp (by omega)) fun xx hxx => gives_bind (gives_comp hp (by omega)) fun xy hxy =>
    gives_bind (gives_comp hp (by omega)) fun xz hxz => gives_bind (gives_comp hp (by omega)) fun yy hyy =>
    gives_bind (gives_comp hp (by omega)) fun yz hyz => gives_bind (gives_comp hp (by omega)) fun zz hzz =>
    gives_bind (gives_comp hb (by omega)) fun bx hbx => gives_bind (gives_comp hb (by omega)) fun b_y hby =>
    gives_bind (gives_comp hb (by omega)) fun bz hbz => gives_bind (magSq_three hb hn) fun mm hmm =>
    gives_bind hP fun pp hpp => gives_bind hQ fun pe hpe => ?_
  refine gives_bind (nonGyro_gives _ hxx hpp hpe hbx hbx hmm) fun ixx k1 =>
    gives_bind (nonGyro_gives _ hxy hpp hpe hbx hby hmm) fun ixy k2 =>
    gives_bind (nonGyro_gives _ hxz hpp hpe hbx hbz hmm) fun ixz k3 =>
    gives_bind (nonGyro_gives _ hyy hpp hpe hby hby hmm) fun iyy k4 =>
    gives_bind (nonGyro_gives _ hyz hpp hpe hby hbz hmm) fun iyz k5 =>
    gives_bind (nonGyro_gives _ hzz hpp hpe hbz hbz hmm) fun izz k6 => ?_
  refine gives_bind (gives_zip _ k1 k1) fun s1 l1 => gives_bind (gives_zip _ k2 k2) fun s2 l2 =>
    gives_bind (gives_zip _ l1 (isField_map1 l2 _)) fun s3 l3 => ?_
  refine gives_bind (gives_zip _ k3 k3) fun s4 l4 => gives_bind (gives_zip _ l3 (isField_map1 l4 _)) fun s5 l5 => ?_
  refine gives_bind (gives_zip _ k4 k4) fun s6 l6 => gives_bind (gives_zip _ l5 l6) fun s7 l7 => ?_
  refine gives_bind (gives_zip _ k5 k5) fun s8 l8 => gives_bind (gives_zip _ l7 (isField_map1 l8 _)) fun s9 l9 => ?_
  refine gives_bind (gives_zip _ k6 k6) fun s10 l10 => gives_bind (gives_zip _ l9 l10) fun s11 l11 => ?_
  refine gives_bind (gives_zip _ hpe hpe) fun d1 m1 => gives_bind (gives_zip _ (isField_map1 hpp _) hpe) fun d2 m2 =>
    gives_bind (gives_zip _ (isField_map1 m1 _) m2) fun d m3 => ?_
  exact gives_zip _ (isField_map1 l11 _) (isField_map1 m3 _)

/-! ### Projection -/

theorem range_three (f : Nat → F) : ((List.range 3).map f).sum = f 0 + f 1 + f 2 := by
  simp [List.range_succ, add_assoc]

theorem rotComp_gives (hu : IsField v cells 3 q) (hr : IsField w cells 3 r) {k : Nat} (hk : k < 3) :
    GivesPlain (rotComp v w k) cells fun i => (q i 0 * r i 0 + q i 1 * r i 1 + q i 2 * r i 2) /
      (r i 0 * r i 0 + r i 1 * r i 1 + r i 2 * r i 2) * r i k := by
  have hsum {a : NArr F} {g : List Nat → Nat → F} (h : IsField a cells 3 g) :
      GivesPlain a.sumFlat cells fun i => g i 0 + g i 1 + g i 2 := by
    have := gives_sumFlat h
    simpa only [range_three] using this
  unfold rotComp
  exact gives_plain_bind (gives_zip _ hu hr) fun x hx => plain_bind (hsum hx) fun n hn =>
    gives_plain_bind (gives_zip _ hr hr) fun y hy => plain_bind (hsum hy) fun d hd =>
    plain_bind (plain_zip _ hn hd) fun t ht => plain_bind (gives_compFlat hr hk) fun c hc => plain_zip _ ht hc

theorem parrotate_gives {n x : Nat} (hu : IsField v cells 3 q) (hr : IsField w cells n r) (hx : x + 3 ≤ n) :
    Gives (parrotate v w (dec x ++ ':' :: dec (x + 3))) cells 3 fun i c =>
      (q i 0 * r i x + q i 1 * r i (x + 1) + q i 2 * r i (x + 2)) /
      (r i x * r i x + r i (x + 1) * r i (x + 1) + r i (x + 2) * r i (x + 2)) * r i (x + c) := by
  unfold parrotate
  rw [coordBounds_dec, ok_bind]
  refine gives_bind (gives_comps hr hx (by omega)) fun s hs => ?_
  rw [show x + 3 - x = 3 by omega] at hs
  refine plain_gives_bind (rotComp_gives hu hs (by omega)) fun a ha => ?_
  rw [hu.shape]
  refine gives_bind (gives_assign (isField_zeros cells 3) (by omega) ha) fun o0 h0 => ?_
  refine plain_gives_bind (rotComp_gives hu hs (by omega)) fun b hb => ?_
  refine gives_bind (gives_assign h0 (by omega) hb) fun o1 h1 => ?_
  refine plain_gives_bind (rotComp_gives hu hs (by omega)) fun c hc => ?_
  refine (gives_assign h1 (by omega) hc).congr fun i hi c hc => ?_
  match c, hc with
  | 0, _ => rfl
  | 1, _ => rfl
  | 2, _ => rfl

/-! ### Energies -/

theorem energetics_gives {elc ion fld : NArr F} {n : Nat} {e : List Nat → Nat → F} {P1 K1 P2 K2 : List Nat → F}
    (h1 : Gives (getP elc (lit 5 / lit 3)) cells 1 fun i _ => P1 i)
    (h2 : Gives (getKe elc (lit 5 / lit 3)) cells 1 fun i _ => K1 i)
    (h3 : Gives (getP ion (lit 5 / lit 3)) cells 1 fun i _ => P2 i)
    (h4 : Gives (getKe ion (lit 5 / lit 3)) cells 1 fun i _ => K2 i)
    (hf : IsField fld cells n e) (hn : 7 ≤ n) (hl : LeadingOnes cells) :
    Gives (energetics elc ion fld) cells 7 fun i c => match c with
      | 0 => P1 i
      | 1 => K1 i
      | 2 => P2 i
      | 3 => K2 i
      | 4 => (e i 0 * e i 0 + e i 1 * e i 1 + e i 2 * e i 2) / lit 2
      | 5 => (e i 3 * e i 3 + e i 4 * e i 4 + e i 5 * e i 5) / lit 2
      | _ => P1 i + K1 i + P2 i + K2 i + (e i 0 * e i 0 + e i 1 * e i 1 + e i 2 * e i 2) / lit 2 +
          (e i 3 * e i 3 + e i 4 * e i 4 + e i 5 * e i 5) / lit 2 := by
  have hb : Gives (magSq fld "3:6".toList) cells 1 fun i _ => e i 3 * e i 3 + e i 4 * e i 4 + e i 5 * e i 5 := by
    refine (magSq_gives hf (x := 3) (y := 6) (by omega) (by omega)).congr fun i _ c _ => ?_
    simp [List.range_succ, add_assoc]
  unfold energetics
  refine gives_bind (gives_comps hf (i := 0) (j := 7) hn (by omega)) fun s hs => ?_
  refine gives_bind h1 fun p1 h1 => gives_bind h2 fun k1 h2 => gives_bind h3 fun p2 h3 => gives_bind h4 fun k2 h4 =>
    gives_bind (magSq_three hf (by omega)) fun es he => gives_bind hb fun bs hb => ?_
  rw [hs.shape]
  refine gives_bind (gives_assign_squeeze (isField_zeros cells _) (by omega) h1 hl) fun o0 g0 => ?_
  refine gives_bind (gives_assign_squeeze g0 (by omega) h2 hl) fun o1 g1 => ?_
  refine gives_bind (gives_assign_squeeze g1 (by omega) h3 hl) fun o2 g2 => ?_
  refine gives_bind (gives_assign_squeeze g2 (by omega) h4 hl) fun o3 g3 => ?_
  refine gives_bind (gives_assign_squeeze g3 (by omega) (isField_map1 he _) hl) fun o4 g4 => ?_
  refine gives_bind (gives_assign_squeeze g4 (by omega) (isField_map1 hb _) hl) fun o5 g5 => ?_
  refine gives_bind (gives_zip _ h1 h2) fun s1 t1 => gives_bind (gives_zip _ t1 h3) fun s2 t2 =>
    gives_bind (gives_zip _ t2 h4) fun s3 t3 => gives_bind (gives_zip _ t3 (isField_map1 he _)) fun s4 t4 =>
    gives_bind (gives_zip _ t4 (isField_map1 hb _)) fun s5 t5 => ?_
  refine (gives_assign_squeeze g5 (by omega) t5 hl).congr fun i hi c hc => ?_
  match c, hc with
  | 0, _ => rfl
  | 1, _ => rfl
  | 2, _ => rfl
  | 3, _ => rfl
  | 4, _ => rfl
  | 5, _ => rfl
  | 6, _ => rfl

/-- With six field components the result has no room for the total. -/
theorem energetics_fails {elc ion fld : NArr F} {e : List Nat → Nat → F} {P1 K1 P2 K2 : List Nat → F}
    (h1 : Gives (getP elc (lit 5 / lit 3)) cells 1 fun i _ => P1 i)
    (h2 : Gives (getKe elc (lit 5 / lit 3)) cells 1 fun i _ => K1 i)
    (h3 : Gives (getP ion (lit 5 / lit 3)) cells 1 fun i _ => P2 i)
    (h4 : Gives (getKe ion (lit 5 / lit 3)) cells 1 fun i _ => K2 i)
    (hf : IsField fld cells 6 e) (hl : LeadingOnes cells) :
    energetics elc ion fld = .error .indexError := by
  have hb : Gives (magSq fld "3:6".toList) cells 1 fun i _ => e i 3 * e i 3 + e i 4 * e i 4 + e i 5 * e i 5 := by
    refine (magSq_gives hf (x := 3) (y := 6) (by omega) (by omega)).congr fun i _ c _ => ?_
    simp [List.range_succ, add_assoc]
  obtain ⟨s, es, hs⟩ : Gives (fld.comps 0 7) cells 6 e := by
    refine ⟨_, by simp only [NArr.comps, hf.last]; rfl, ?_⟩
    rw [hf.dropLast]
    refine isField_of_ofFn fun i hi c hc => ?_
    have : sliceBound 6 0 = 0 := rfl
    simp only [this, List.dropLast_concat, Nat.zero_add, List.getLastD_concat]
    exact hf.get i hi c hc
  obtain ⟨p1, e1, h1⟩ := h1
  obtain ⟨k1, e2, h2⟩ := h2
  obtain ⟨p2, e3, h3⟩ := h3
  obtain ⟨k2, e4, h4⟩ := h4
  obtain ⟨eq, e5, h5⟩ := magSq_three hf (by omega)
  obtain ⟨bq, e6, h6⟩ := hb
  obtain ⟨o0, c0, g0⟩ := gives_assign_squeeze (isField_zeros (F := F) cells 6) (k := 0) (by omega) h1 hl
  obtain ⟨o1, c1, g1⟩ := gives_assign_squeeze g0 (k := 1) (by omega) h2 hl
  obtain ⟨o2, c2, g2⟩ := gives_assign_squeeze g1 (k := 2) (by omega) h3 hl
  obtain ⟨o3, c3, g3⟩ := gives_assign_squeeze g2 (k := 3) (by omega) h4 hl
  obtain ⟨o4, c4, g4⟩ := gives_assign_squeeze g3 (k := 4) (by omega) (isField_map1 h5 (· / lit 2)) hl
  obtain ⟨o5, c5, g5⟩ := gives_assign_squeeze g4 (k := 5) (by omega) (isField_map1 h6 (· / lit 2)) hl
  obtain ⟨s1, d1, t1⟩ := gives_zip (· + ·) h1 h2
  obtain ⟨s2, d2, t2⟩ := gives_zip (· + ·) t1 h3
  obtain ⟨s3, d3, t3⟩ := gives_zip (· + ·) t2 h4
  obtain ⟨s4, d4, t4⟩ := gives_zip (· + ·) t3 (isField_map1 h5 (· / lit 2))
  obtain ⟨s5, d5, t5⟩ := gives_zip (· + ·) t4 (isField_map1 h6 (· / lit 2))
  unfold energetics
  simp only [es, hs.shape, e1, e2, e3, e4, ok_bind]
  rw [show magSq fld "0:3".toList = .ok eq from e5]
  simp only [e6, ok_bind, c0, c1, c2, c3, c4, c5, add, d1, d2, d3, d4, d5]
  simp only [NArr.assignComp, g5.last]
  rfl

/-! ### Relative change -/

theorem relComp_gives (h0 : IsField w cells m b) (h : IsField v cells m q) {comp : Option Nat} {k : Nat} (hk : k < m)
    (hc : comp.getD k < m) :
    GivesPlain (relComp w v comp k) cells fun i => (q i k - b i k) / b i (comp.getD k) := by
  unfold relComp
  exact plain_bind (gives_compFlat h hk) fun x hx => plain_bind (gives_compFlat h0 hk) fun y hy =>
    plain_bind (plain_zip _ hx hy) fun d hd => plain_bind (gives_compFlat h0 hc) fun z hz => plain_zip _ hd hz

theorem relChange_gives (h0 : IsField w cells m b) (h : IsField v cells m q) {comp : Option Nat}
    (hc : ∀ k < m, comp.getD k < m) :
    Gives (relChange w v comp) cells m fun i c => (q i c - b i c) / b i (comp.getD c) := by
  unfold relChange
  rw [h.last, h.shape]
  show Gives ((List.range m).foldlM _ _) _ _ _
  have key : ∀ k ≤ m, Gives ((List.range k).foldlM (fun out i => do out.assignComp i (← relComp w v comp i))
      (NArr.zeros (α := F) (cells ++ [m]))) cells m
      fun i c => if c < k then (q i c - b i c) / b i (comp.getD c) else 0 := by
    intro k
    induction k with
    | zero => exact fun _ => ⟨_, rfl, (isField_zeros cells m).congr fun i _ c _ => by simp⟩
    | succ k ih =>
      intro hk
      rw [List.range_succ, List.foldlM_append]
      refine gives_bind (ih (by omega)) fun o ho => ?_
      rw [List.foldlM_cons]
      refine gives_bind ?_ fun o' ho' => gives_pure ho'
      refine plain_gives_bind (relComp_gives h0 h (by omega) (hc k (by omega))) fun x hx => ?_
      refine (gives_assign ho (by omega) hx).congr fun i _ c _ => ?_
      by_cases e : c = k
      · subst e; simp
      · simp only [if_neg e]
        by_cases e' : c < k
        · rw [if_pos e', if_pos (by omega)]
        · rw [if_neg e', if_neg (by omega)]
  refine (key m le_rfl).congr fun i _ c hc => by rw [if_pos hc]

end
end Pgkyl.Tools
