import Verif.Lemmas.Butter
import Mathlib.Algebra.Ring.Rat
import Mathlib.Algebra.Order.Ring.Unbundled.Rat
import Mathlib.Algebra.Field.Rat
import Mathlib.Tactic.NormNum
/-!
# C163, C164: the Butterworth filter; the cut-off chosen with the mouse

The coefficients come from `scipy.signal.butter`, which is not modelled: the theorems hold for all coefficients.
-/

namespace Pgkyl
open Spec Filters

section
variable {F : Type} [_root_.Field F] [DecidableEq F] [CharZero F] {butter : Nat → F → Except Err (List F × List F)}

/-- What `butter_filtering` does. -/
theorem butterFiltering_eq (data : List F) {dt : F} (hdt : dt ≠ 0) (cutoff : F) :
    butterFiltering butter data dt (some cutoff) = (butter 6 (2 * dt * cutoff)).bind fun c => lfilter c.1 c.2 data := by
  have h1 : (1 : F) / 2 * (1 / dt) ≠ 0 := by
    exact mul_ne_zero (one_div_ne_zero two_ne_zero) (one_div_ne_zero hdt)
  have h2 : cutoff / (1 / 2 * (1 / dt)) = 2 * dt * cutoff := by
    have : (2 : F) ≠ 0 := two_ne_zero
    field_simp
  rw [butterFiltering, if_neg hdt, butterLowpassFilter, butterLowpass]
  simp only [if_neg h1, h2]
  rfl

/-- C163: with the coefficients `b` and `a` of the filter of order six for the cut-off in units of half the sampling rate, the
result is the one signal that answers the data by the difference equation of these coefficients. -/
theorem C163_equation (data : List F) {dt : F} (hdt : dt ≠ 0) {cutoff : F} {b a : List F}
    (hb : butter 6 (2 * dt * cutoff) = .ok (b, a)) (ha : sample a 0 ≠ 0) :
    ∃ y, butterFiltering butter data dt (some cutoff) = .ok y ∧ Answers b a data y ∧ ∀ z, Answers b a data z → z = y := by
  rw [butterFiltering_eq data hdt, hb]
  cases a with
  | nil => simp [sample] at ha
  | cons a0 a =>
    have h0 : a0 ≠ 0 := by simpa [sample] using ha
    refine ⟨_, by simp only [Except.bind, lfilter, if_neg h0], recur_answers b a0 a h0 data, fun z hz => ?_⟩
    exact answers_unique ha hz (recur_answers b a0 a h0 data)

/-- The calls that succeed. -/
theorem butterFiltering_ok {data : List F} {dt : F} {cutoff : Option F} {y : List F}
    (h : butterFiltering butter data dt cutoff = .ok y) :
    ∃ c b a0 a, dt ≠ 0 ∧ cutoff = some c ∧ butter 6 (2 * dt * c) = .ok (b, a0 :: a) ∧ a0 ≠ 0 ∧ y = recur b a0 a [] [] data := by
  by_cases hdt : dt = 0
  · simp [butterFiltering, hdt] at h
  cases cutoff with
  | none =>
    simp only [butterFiltering, if_neg hdt, butterLowpassFilter, butterLowpass, bind, Except.bind] at h
    cases h
  | some c =>
    rw [butterFiltering_eq data hdt] at h
    cases hb : butter 6 (2 * dt * c) with
    | error e => rw [hb] at h; cases h
    | ok p =>
      obtain ⟨b, a⟩ := p
      rw [hb] at h
      cases a with
      | nil => cases h
      | cons a0 a =>
        simp only [Except.bind, lfilter] at h
        split at h
        · cases h
        · next h0 => cases h; exact ⟨c, b, a0, a, hdt, rfl, hb, h0, rfl⟩

theorem butterFiltering_of {data : List F} {dt c : F} {b : List F} {a0 : F} {a : List F} (hdt : dt ≠ 0)
    (hb : butter 6 (2 * dt * c) = .ok (b, a0 :: a)) (h0 : a0 ≠ 0) :
    butterFiltering butter data dt (some c) = .ok (recur b a0 a [] [] data) := by
  rw [butterFiltering_eq data hdt, hb]
  simp only [Except.bind, lfilter, if_neg h0]

/-- C163: whether the filter accepts the sampling and the cut-off does not depend on the data, and it keeps the number of
samples. -/
theorem C163_length {data y : List F} {dt : F} {cutoff : Option F} (h : butterFiltering butter data dt cutoff = .ok y) :
    y.length = data.length ∧ ∀ other : List F, ∃ z, butterFiltering butter other dt cutoff = .ok z := by
  obtain ⟨c, b, a0, a, h1, rfl, h3, h4, rfl⟩ := butterFiltering_ok h
  exact ⟨recur_length .., fun other => ⟨_, butterFiltering_of h1 h3 h4⟩⟩

/-- C163: the filter is linear. -/
theorem C163_linear {x y x' y' : List F} {dt : F} {cutoff : Option F} (s t : F) (hl : x.length = y.length)
    (hx : butterFiltering butter x dt cutoff = .ok x') (hy : butterFiltering butter y dt cutoff = .ok y') :
    butterFiltering butter (List.zipWith (fun p q => s * p + t * q) x y) dt cutoff =
      .ok (List.zipWith (fun p q => s * p + t * q) x' y') := by
  obtain ⟨c, b, a0, a, h1, rfl, h3, h4, rfl⟩ := butterFiltering_ok hx
  rw [butterFiltering_of h1 h3 h4] at hy
  cases hy
  rw [butterFiltering_of h1 h3 h4]
  exact congrArg _ (recur_lin b a0 a s t x y [] [] [] [] hl rfl rfl)

/-- C163: the filter is causal: later samples do not change earlier results. -/
theorem C163_causal {data more y z : List F} {dt : F} {cutoff : Option F} (h : butterFiltering butter data dt cutoff = .ok y)
    (h' : butterFiltering butter (data ++ more) dt cutoff = .ok z) : z.take data.length = y := by
  obtain ⟨c, b, a0, a, h1, rfl, h3, h4, rfl⟩ := butterFiltering_ok h
  rw [butterFiltering_of h1 h3 h4] at h'
  cases h'
  exact recur_append b a0 a more data [] []

/-- C163: the filter does not depend on when the signal starts: silence before it stays silence, and the rest is the same. -/
theorem C163_delay {data y : List F} {dt : F} {cutoff : Option F} (h : butterFiltering butter data dt cutoff = .ok y) (k : Nat) :
    butterFiltering butter (List.replicate k 0 ++ data) dt cutoff = .ok (List.replicate k 0 ++ y) := by
  obtain ⟨c, b, a0, a, h1, rfl, h3, h4, rfl⟩ := butterFiltering_ok h
  rw [butterFiltering_of h1 h3 h4, recur_delay]

/-- C163: the unit of time does not matter: the spacing in other units and the cut-off in the inverse unit give the same. -/
theorem C163_units (data : List F) (dt cutoff : F) {s : F} (hs : s ≠ 0) :
    butterFiltering butter data (s * dt) (some (cutoff / s)) = butterFiltering butter data dt (some cutoff) := by
  by_cases hdt : dt = 0
  · simp [butterFiltering, hdt]
  · rw [butterFiltering_eq data (mul_ne_zero hs hdt), butterFiltering_eq data hdt]
    congr 2
    field_simp

omit [CharZero F] in
/-- C163 fails without a cut-off, which is the default: an error is raised for all data. -/
theorem C163_default_fails (data : List F) (dt : F) : ∃ e, butterFiltering butter data dt = .error e := by
  by_cases hdt : dt = 0
  · exact ⟨.fail, by simp [butterFiltering, hdt]⟩
  · exact ⟨.typeError, by simp [butterFiltering, hdt, butterLowpassFilter, butterLowpass, bind, Except.bind]⟩

end

/-- The hypotheses of C163 are met: a filter of first order with the data 1, 0, 0, whose answer is 1/2, 1/4, 1/8. -/
example : let butter : Nat → ℚ → Except Err (List ℚ × List ℚ) := fun _ w => .ok ([w], [1, -w])
    butterFiltering butter [1, 0, 0] (1 / 2) (some (1 / 2)) = .ok [1 / 2, 1 / 4, 1 / 8] := by decide +kernel

/-! ## C164 -/

/-- The user clicks, in this call, on a window that is shown. -/
def Filters.Call.Clicked (c : Call) (x : Option ℝ) : Prop := c.data.length * c.dt ≠ 0 ∧ c.cutoff = none ∧ c.click = some x

/-- The results of a session after its first calls. -/
theorem session_append : ∀ (cs : List Call) (ix : Ix), ∃ ix', (∀ more, session ix (cs ++ more) = session ix cs ++ session ix' more) ∧
    ((∀ c ∈ cs, ∀ x, ¬ c.Clicked x) → ix' = ix) ∧
    ∀ before c after x, cs = before ++ c :: after → c.Clicked x → (∀ c ∈ after, ∀ x, ¬ c.Clicked x) → ix' = some x
  | [], ix => ⟨ix, fun _ => rfl, fun _ => rfl, fun before c after x h => by simp at h⟩
  | c :: cs, ix => by
    obtain ⟨ix', h1, h2, h3⟩ := session_append cs (fftFiltering ix c.data c.dt c.cutoff c.click).2
    have hno : (∀ x, ¬ c.Clicked x) → (fftFiltering ix c.data c.dt c.cutoff c.click).2 = ix := by
      intro h
      unfold fftFiltering
      split
      · rfl
      · next hd =>
        cases hc : c.cutoff with
        | some x => rfl
        | none =>
          cases hk : c.click with
          | some x => exact absurd ⟨hd, hc, hk⟩ (h x)
          | none => cases ix <;> rfl
    refine ⟨ix', fun more => ?_, fun h => ?_, fun before d after x e hd ha => ?_⟩
    · simp only [List.cons_append, session, h1]
    · rw [h2 fun c' hc' => h c' (List.mem_cons_of_mem _ hc'), hno (h c (by simp))]
    · cases before with
      | nil =>
        simp only [List.nil_append, List.cons.injEq] at e
        obtain ⟨rfl, rfl⟩ := e
        rw [h2 ha]
        obtain ⟨k1, k2, k3⟩ := hd
        simp only [fftFiltering, if_neg k1, k2, k3, Option.or]
      | cons b before =>
        simp only [List.cons_append, List.cons.injEq] at e
        exact h3 before d after x e.2 hd ha

theorem session_at (before : List Call) (c : Call) (after : List Call) : ∃ ix, (session none (before ++ c :: after))[before.length]? =
      some (fftFiltering ix c.data c.dt c.cutoff c.click).1 ∧
    ((∀ d ∈ before, ∀ x, ¬ d.Clicked x) → ix = none) ∧
    ∀ b d e x, before = b ++ d :: e → d.Clicked x → (∀ d ∈ e, ∀ x, ¬ d.Clicked x) → ix = some x := by
  have hlen : ∀ (cs : List Call) ix, (session ix cs).length = cs.length := by
    intro cs
    induction cs with
    | nil => intro ix; rfl
    | cons c cs ih => intro ix; simp [session, ih]
  obtain ⟨ix, h1, h2, h3⟩ := session_append before none
  refine ⟨ix, ?_, h2, h3⟩
  rw [h1, List.getElem?_append_right (by rw [hlen]), hlen, Nat.sub_self]
  rfl

/-- C164, in part: in every session, a call of `fft_filtering` with a cut-off, or for which the user clicks on a frequency,
filters its data at this frequency, whatever was done before.  Missing: the user closes the window without a click, see
`C164_closed_fails`. -/
theorem C164_chosen_partial (before after : List Call) (c : Call) (hc : c.data.length * c.dt ≠ 0) {f : ℝ}
    (h : c.cutoff = some f ∨ c.cutoff = none ∧ c.click = some (some f)) :
    (session none (before ++ c :: after))[before.length]? = some (.ok (Spectral.fftFilter c.data c.dt f)) := by
  obtain ⟨ix, h1, -⟩ := session_at before c after
  rw [h1]
  rcases h with h | ⟨h, k⟩
  · simp only [fftFiltering, if_neg hc, h, filterAt]
  · simp only [fftFiltering, if_neg hc, h, k, Option.or, filterAt]

/-- C164: a click outside of the axes, and a window closed without a click before any other click of the session, are
errors. -/
theorem C164_no_choice (before after : List Call) (c : Call) (hc : c.data.length * c.dt ≠ 0) (h : c.cutoff = none)
    (hk : c.click = some none ∨ c.click = none ∧ ∀ d ∈ before, ∀ x, ¬ d.Clicked x) :
    ∃ e, (session none (before ++ c :: after))[before.length]? = some (.error e) := by
  obtain ⟨ix, h1, h2, -⟩ := session_at before c after
  rw [h1]
  rcases hk with k | ⟨k, h'⟩
  · exact ⟨.typeError, by simp only [fftFiltering, if_neg hc, h, k, Option.or, filterAt]⟩
  · rw [h2 h']
    exact ⟨.unboundLocal, by simp only [fftFiltering, if_neg hc, h, k, Option.or]⟩

/-- C164 fails for a window closed without a click: the frequency of the latest click is used again, which was chosen for
other data. -/
theorem C164_closed_fails (before between after : List Call) (d c : Call) {f : ℝ} (hd : d.Clicked (some f))
    (hb : ∀ e ∈ between, ∀ x, ¬ e.Clicked x) (hc : c.data.length * c.dt ≠ 0) (h : c.cutoff = none) (hk : c.click = none) :
    (session none ((before ++ d :: between) ++ c :: after))[(before ++ d :: between).length]? =
      some (.ok (Spectral.fftFilter c.data c.dt f)) := by
  obtain ⟨ix, h1, -, h3⟩ := session_at (before ++ d :: between) c after
  rw [h1, h3 before d between _ rfl hd hb]
  simp only [fftFiltering, if_neg hc, h, hk, Option.or, filterAt]

/-- The hypotheses of C164 are met. -/
example : Call.Clicked ⟨[1, 2], 1, none, some (some 3)⟩ (some 3) ∧ ¬ Call.Clicked ⟨[1, 2], 1, some 1, none⟩ (some 3) ∧
    ((([1, 2] : List ℝ).length : ℝ) * 1 ≠ 0) := by
  refine ⟨⟨?_, rfl, rfl⟩, fun h => (by have := h.2.1; cases this), ?_⟩ <;> norm_num

end Pgkyl
