import Verif.Spec.Inputs
/-!
# Lemmas on the arguments of the diagnostics
-/

namespace Pgkyl
open Spec Inp

namespace Inp
variable {F : Type} [Min F] [Max F]

theorem value_finish (g : PyGrid F) (m : Except Err (NArr F)) :
    value (m >>= fun r => finish g none r) = m := by
  cases m <;> rfl

theorem ok_bind {α β : Type} (a : α) (k : α → Except Err β) : (Except.ok a >>= k) = k a :=
  pure_bind a k

variable [Add F] [Sub F] [Mul F] [Div F] [Zero F] [IntCast F] {x : Input F} {g : PyGrid F} {v : NArr F}

section
variable (h : parse x = .ok (g, some v)) (out : Option (GData F))
include h

theorem getDensity_eq : getDensity x out = Tools.getDensity v >>= finish g out := by
  unfold getDensity Tools.getDensity
  rw [h]
  rfl

theorem value_density : value (getDensity x) = Tools.getDensity v := by
  rw [getDensity_eq h]; exact value_finish g _

theorem getV_eq (k : Nat) : getV k x out = Tools.getV k v >>= finish g out := by
  unfold getV Tools.getV
  rw [value_density h, h]
  simp only [need, bind_assoc, pure_bind]
  rfl

theorem value_v (k : Nat) : value (getV k x) = Tools.getV k v := by
  rw [getV_eq h]; exact value_finish g _

theorem getVi_eq : getVi x out = Tools.getVi v >>= finish g out := by
  unfold getVi Tools.getVi
  rw [value_density h, h]
  simp only [need, bind_assoc, pure_bind]
  rfl

theorem getPab_eq (c i j : Nat) : getPab c i j x out = Tools.getPab c i j v >>= finish g out := by
  unfold getPab Tools.getPab
  rw [value_density h, value_v h, value_v h, h]
  simp only [need, bind_assoc, pure_bind]
  rfl

theorem value_pab (c i j : Nat) : value (getPab c i j x) = Tools.getPab c i j v := by
  rw [getPab_eq h]; exact value_finish g _

theorem getPij_eq : getPij x out = Tools.getPij v >>= finish g out := by
  unfold getPij Tools.getPij
  simp only [value_pab h, h, need, bind_assoc, pure_bind]
  rfl

theorem flowEnergy_eq : flowEnergy x = Tools.flowEnergy v := by
  unfold flowEnergy Tools.flowEnergy
  simp only [value_density h, value_v h]

theorem getP_eq (gamma : F) (nm : Option Int) : getP gamma nm x out = Tools.getP v gamma nm >>= finish g out := by
  unfold getP Tools.getP getP5 getP10
  simp only [h, needShape, flowEnergy_eq h, value_pab h, bind_assoc, pure_bind]
  show (Tools.numMoms v nm >>= _) = (Tools.numMoms v nm >>= _)
  congr 1
  funext n
  split <;> simp only [bind_assoc, pure_bind]

theorem value_p (gamma : F) (nm : Option Int) : value (getP gamma nm x) = Tools.getP v gamma nm := by
  rw [getP_eq h]; exact value_finish g _

theorem getKe_eq (gamma : F) (nm : Option Int) : getKe gamma nm x out = Tools.getKe v gamma nm >>= finish g out := by
  unfold getKe Tools.getKe getKe5
  simp only [h, needShape, flowEnergy_eq h, value_p h, bind_assoc, pure_bind]
  show (Tools.numMoms v nm >>= _) = (Tools.numMoms v nm >>= _)
  congr 1
  funext n
  split <;> simp only [bind_assoc, pure_bind]

/-- A call whose grid is used as well. -/
theorem call_eq {α : Type} (m : Except Err (NArr F)) (k : Res F → Except Err α) :
    ((m >>= finish g none) >>= k) = m >>= fun r => k (g, r, none) := by
  cases m <;> rfl

theorem getTemp_eq (gamma : F) (nm : Option Int) : getTemp gamma nm x out = Tools.getTemp v gamma nm >>= finish g out := by
  unfold getTemp Tools.getTemp
  rw [getDensity_eq h, call_eq h, value_p h]
  simp only [bind_assoc, pure_bind]

theorem getSound_eq (sqrt : F → F) (gamma : F) (nm : Option Int) :
    getSound sqrt gamma nm x out = Tools.getSound sqrt v gamma nm >>= finish g out := by
  unfold getSound Tools.getSound
  rw [getDensity_eq h, call_eq h, value_p h]
  simp only [bind_assoc, pure_bind]

theorem value_sound (sqrt : F → F) (gamma : F) (nm : Option Int) :
    value (getSound sqrt gamma nm x) = Tools.getSound sqrt v gamma nm := by
  rw [getSound_eq h]; exact value_finish g _

theorem getMach_eq (sqrt : F → F) (gamma : F) (nm : Option Int) :
    getMach sqrt gamma nm x out = Tools.getMach sqrt v gamma nm >>= finish g out := by
  unfold getMach Tools.getMach Tools.speedOver
  rw [getV_eq h, call_eq h]
  simp only [value_v h, value_sound h, bind_assoc, pure_bind]

theorem getMhdB_eq (k : Nat) : getMhdB k x out = Tools.getMhdB k v >>= finish g out := by
  unfold getMhdB Tools.getMhdB
  rw [h]
  rfl

theorem value_mhdB (k : Nat) : value (getMhdB k x) = Tools.getMhdB k v := by
  rw [getMhdB_eq h]; exact value_finish g _

theorem getMhdBi_eq : getMhdBi x out = Tools.getMhdBi v >>= finish g out := by
  unfold getMhdBi Tools.getMhdBi
  rw [h]
  rfl

theorem getMhdMagP_eq (mu0 : F) : getMhdMagP mu0 x out = Tools.getMhdMagP v mu0 >>= finish g out := by
  unfold getMhdMagP Tools.getMhdMagP
  rw [getMhdB_eq h, call_eq h]
  simp only [value_mhdB h, bind_assoc, pure_bind]

theorem value_magP (mu0 : F) : value (getMhdMagP mu0 x) = Tools.getMhdMagP v mu0 := by
  rw [getMhdMagP_eq h]; exact value_finish g _

theorem getMhdP_eq (gamma mu0 : F) : getMhdP gamma mu0 x out = Tools.getMhdP v gamma mu0 >>= finish g out := by
  unfold getMhdP Tools.getMhdP
  rw [flowEnergy_eq h, value_magP h, h]
  simp only [need, bind_assoc, pure_bind]
  rfl

theorem value_mhdP (gamma mu0 : F) : value (getMhdP gamma mu0 x) = Tools.getMhdP v gamma mu0 := by
  rw [getMhdP_eq h]; exact value_finish g _

theorem getMhdTemp_eq (gamma mu0 : F) : getMhdTemp gamma mu0 x out = Tools.getMhdTemp v gamma mu0 >>= finish g out := by
  unfold getMhdTemp Tools.getMhdTemp
  rw [getDensity_eq h, call_eq h, value_mhdP h]
  simp only [bind_assoc, pure_bind]

theorem getMhdSound_eq (sqrt : F → F) (gamma mu0 : F) :
    getMhdSound sqrt gamma mu0 x out = Tools.getMhdSound sqrt v gamma mu0 >>= finish g out := by
  unfold getMhdSound Tools.getMhdSound
  rw [getDensity_eq h, call_eq h, value_mhdP h]
  simp only [bind_assoc, pure_bind]

theorem value_mhdSound (sqrt : F → F) (gamma mu0 : F) :
    value (getMhdSound sqrt gamma mu0 x) = Tools.getMhdSound sqrt v gamma mu0 := by
  rw [getMhdSound_eq h]; exact value_finish g _

theorem getMhdMach_eq (sqrt : F → F) (gamma mu0 : F) :
    getMhdMach sqrt gamma mu0 x out = Tools.getMhdMach sqrt v gamma mu0 >>= finish g out := by
  unfold getMhdMach Tools.getMhdMach Tools.speedOver
  rw [getV_eq h, call_eq h]
  simp only [value_v h, value_mhdSound h, bind_assoc, pure_bind]

theorem magSq_eq (coords : List Char) : magSq coords x out = Tools.magSq v coords >>= finish g out := by
  unfold magSq Tools.magSq
  rw [h]
  simp only [need, bind_assoc, pure_bind]
  rfl

theorem run_eq (sqrt : F → F) (t : Tool F) : t.run sqrt x out = onValues sqrt t v >>= finish g out := by
  cases t with
  | density => exact getDensity_eq h out
  | velocity k => exact getV_eq h out k
  | velocities => exact getVi_eq h out
  | stress c i j => exact getPab_eq h out c i j
  | tensor => exact getPij_eq h out
  | pressure gamma nm => exact getP_eq h out gamma nm
  | kinetic gamma nm => exact getKe_eq h out gamma nm
  | temperature gamma nm => exact getTemp_eq h out gamma nm
  | sound gamma nm => exact getSound_eq h out sqrt gamma nm
  | mach gamma nm => exact getMach_eq h out sqrt gamma nm
  | field k => exact getMhdB_eq h out k
  | fields => exact getMhdBi_eq h out
  | magneticPressure mu0 => exact getMhdMagP_eq h out mu0
  | mhdPressure gamma mu0 => exact getMhdP_eq h out gamma mu0
  | mhdTemperature gamma mu0 => exact getMhdTemp_eq h out gamma mu0
  | mhdSound gamma mu0 => exact getMhdSound_eq h out sqrt gamma mu0
  | mhdMach gamma mu0 => exact getMhdMach_eq h out sqrt gamma mu0
  | squared coords => exact magSq_eq h out coords

end

omit [Min F] [Max F] [Add F] [Sub F] [Mul F] [Div F] [Zero F] [IntCast F] in
theorem parse_standsFor (h : StandsFor x g v) : parse x = .ok (g, some v) := by
  cases h with
  | dataset hg hv => simp [parse, gridOf, hg, hv]
  | noGrid hg hv => simp [parse, gridOf, hg, hv]
  | array v => rfl
  | pair h => simp only [parse]; rw [if_neg (by omega)]

omit [Min F] [Max F] [Add F] [Sub F] [Mul F] [Div F] [Zero F] [IntCast F] in
theorem standsFor_of_parse (h : parse x = .ok (g, some v)) : StandsFor x g v := by
  unfold parse at h
  split at h
  · rename_i d
    simp only [Except.ok.injEq, Prod.mk.injEq] at h
    obtain ⟨h1, h2⟩ := h
    unfold gridOf at h1
    split at h1
    · rename_i g' hg'
      subst h1
      exact .dataset hg' h2
    · rename_i hg'
      subst h1
      exact .noGrid hg' h2
  · cases h
    exact .array _
  · split at h
    · cases h
    · cases h
      exact .pair (by omega)
  all_goals cases h

/-- Every function begins by parsing its argument. -/
theorem run_parse (sqrt : F → F) (t : Tool F) {e : Err} (h : parse x = .error e) (out : Option (GData F)) :
    t.run sqrt x out = .error e := by
  cases t <;>
    simp only [Tool.run, getDensity, getV, getVi, getPab, getPij, getP, getKe, getTemp, getSound, getMach, getMhdB, getMhdBi,
      getMhdMagP, getMhdP, getMhdTemp, getMhdSound, getMhdMach, magSq, h, bind, Except.bind]

/-- A dataset without values. -/
theorem run_unloaded (sqrt : F → F) (t : Tool F) (h : parse x = .ok (g, none)) (out : Option (GData F)) :
    ∃ e, t.run sqrt x out = .error e := by
  cases t <;>
    simp [Tool.run, getDensity, getV, getVi, getPab, getPij, getP, getKe, getTemp, getSound, getMach, getMhdB, getMhdBi,
      getMhdMagP, getMhdP, getMhdTemp, getMhdSound, getMhdMach, magSq, flowEnergy, value, need, needShape, h, bind, Except.bind]
  rename_i coords
  cases Tools.coordBounds coords with
  | error e => exact ⟨e, rfl⟩
  | ok b => exact ⟨.typeError, rfl⟩

section
variable {p_in b_in : Input F} {gp gb : PyGrid F} {p b : NArr F} (hp : parse p_in = .ok (gp, some p))
  (hb : parse b_in = .ok (gb, some b))
include hp hb

theorem getPPar_eq : getPPar p_in b_in = Tools.getPPar p b >>= fun r => pure (gb, r) := by
  unfold getPPar Tools.getPPar
  simp only [hp, hb, ok_bind, need, magSq_eq hb, call_eq hb, bind_assoc, pure_bind]

theorem getPPerp_eq : getPPerp p_in b_in = Tools.getPPerp p b >>= fun r => pure (gb, r) := by
  unfold getPPerp Tools.getPPerp
  simp only [hp, ok_bind, need, getPPar_eq hp hb, bind_assoc, pure_bind]

omit [Min F] [Max F] [Add F] [Sub F] [Mul F] [Div F] [Zero F] [IntCast F] hp hb in
theorem bind_ok {α β : Type} {m : Except Err α} {k : α → Except Err β} {r : β} (h : m >>= k = .ok r) :
    ∃ a, m = .ok a ∧ k a = .ok r := by
  cases m with
  | error e => cases h
  | ok a => exact ⟨a, rfl, h⟩

omit [Min F] [Max F] hp hb in
/-- What `get_agyro` computes beforehand cannot fail if the formula does not. -/
theorem agyro_parts {sqrt : F → F} {measure : List Char} {r : NArr F} (h : Tools.getAgyro sqrt p b measure = .ok r) :
    (∃ m, Tools.magSq b = .ok m) ∧ (∃ a, Tools.getPPar p b = .ok a) ∧ ∃ a, Tools.getPPerp p b = .ok a := by
  have key : ∀ a, Tools.getPPar p b = .ok a → ∃ m, Tools.magSq b = .ok m := by
    intro a h
    unfold Tools.getPPar at h
    iterate 9 obtain ⟨_, -, h⟩ := bind_ok h
    obtain ⟨m, hm, -⟩ := bind_ok h
    exact ⟨m, hm⟩
  unfold Tools.getAgyro at h
  split at h
  · unfold Tools.agyroSwisdak at h
    obtain ⟨pxx, h0, h⟩ := bind_ok h
    iterate 2 obtain ⟨_, -, h⟩ := bind_ok h
    obtain ⟨pyy, h3, h⟩ := bind_ok h
    obtain ⟨_, -, h⟩ := bind_ok h
    obtain ⟨pzz, h5, h⟩ := bind_ok h
    obtain ⟨a, ha, h⟩ := bind_ok h
    obtain ⟨s1, h6, h⟩ := bind_ok h
    obtain ⟨s2, h7, h⟩ := bind_ok h
    iterate 11 obtain ⟨_, -, h⟩ := bind_ok h
    obtain ⟨s3, h8, h⟩ := bind_ok h
    refine ⟨key a ha, ⟨a, ha⟩, s3.map1 (· / Tools.lit 2), ?_⟩
    unfold Tools.getPPerp
    rw [h0, h3, h5, ha]
    simp only [bind, Except.bind, h6, h7, h8]
    rfl
  · split at h
    · unfold Tools.agyroFrobenius at h
      iterate 9 obtain ⟨_, -, h⟩ := bind_ok h
      obtain ⟨m, hm, h⟩ := bind_ok h
      obtain ⟨a, ha, h⟩ := bind_ok h
      obtain ⟨a', ha', h⟩ := bind_ok h
      exact ⟨⟨m, hm⟩, ⟨a, ha⟩, a', ha'⟩
    · cases h

theorem getAgyro_ok {sqrt : F → F} {measure : List Char} {g : PyGrid F} {r : NArr F} :
    getAgyro sqrt measure p_in b_in = .ok (g, r) ↔ g = gb ∧ Tools.getAgyro sqrt p b measure = .ok r := by
  unfold getAgyro
  simp only [hp, hb, ok_bind, need, magSq_eq hb, call_eq hb, getPPar_eq hp hb, getPPerp_eq hp hb, bind_assoc, pure_bind]
  constructor
  · intro h
    obtain ⟨_, -, h⟩ := bind_ok h
    obtain ⟨_, -, h⟩ := bind_ok h
    obtain ⟨_, -, h⟩ := bind_ok h
    obtain ⟨r', h', h⟩ := bind_ok h
    cases h
    exact ⟨rfl, h'⟩
  · rintro ⟨rfl, h⟩
    obtain ⟨⟨m, hm⟩, ⟨a, ha⟩, a', ha'⟩ := agyro_parts h
    rw [hm, ha, ha', h]
    rfl

end

omit [Min F] [Max F] [Add F] [Sub F] [Mul F] [Div F] [Zero F] [IntCast F] in
theorem assignComp_shape {o w r : NArr F} {k : Nat} (h : o.assignComp k w = .ok r) : r.shape = o.shape := by
  unfold NArr.assignComp at h
  split at h
  · cases h
  · split_ifs at h
    cases h
    rfl

omit [Min F] [Max F] [Add F] [Sub F] [Mul F] [Div F] [Zero F] [IntCast F] in
theorem comps_axes {o r : NArr F} {i j : Int} (h : o.comps i j = .ok r) : r.shape.length = o.shape.length := by
  unfold NArr.comps at h
  split at h
  · cases h
  · rename_i n hn
    cases h
    have : o.shape ≠ [] := by intro e; simp [e] at hn
    have := List.length_pos_of_ne_nil this
    simp only [NArr.ofFn, List.length_append, List.length_dropLast, List.length_cons, List.length_nil]
    omega

omit [Min F] [Max F] in
theorem getPij_axes {r : NArr F} (h : Tools.getPij v = .ok r) : r.shape.length = v.shape.length := by
  unfold Tools.getPij at h
  obtain ⟨c, hc, h⟩ := bind_ok h
  iterate 6 obtain ⟨_, -, h⟩ := bind_ok h
  obtain ⟨o0, h0, h⟩ := bind_ok h
  obtain ⟨o1, h1, h⟩ := bind_ok h
  obtain ⟨o2, h2, h⟩ := bind_ok h
  obtain ⟨o3, h3, h⟩ := bind_ok h
  obtain ⟨o4, h4, h⟩ := bind_ok h
  rw [assignComp_shape h, assignComp_shape h4, assignComp_shape h3, assignComp_shape h2, assignComp_shape h1,
    assignComp_shape h0]
  show c.shape.length = _
  exact comps_axes hc

end Inp

end Pgkyl
