import Verif.Lemmas.PairCommands
import Verif.Props.Commands
/-!
# C92, C93: commands that combine datasets of several tags; `relchange`

The tags of the inputs are single tags (without a comma) that exist in the store.
-/

namespace Pgkyl
open Spec Cmd

variable {F : Type} [_root_.Field F] [CharZero F] [Min F] [Max F]

/-- The tag is a single one and known to the store. -/
structure Known (s : Space F) (t : Tag) : Prop where
  single : ',' ∉ t
  nonempty : t ≠ []
  stored : t ∈ s.dict.map Prod.fst

omit [_root_.Field F] [CharZero F] [Min F] [Max F] in
/-- Two tags are switched off. -/
theorem off_two {s s1 : Space F} {a b : Tag} (ha : Known s a) (hb : Known s b)
    (h : Reachable s1 ∧ ∀ t ∈ s.dict.map Prod.fst, t ∈ s1.dict.map Prod.fst) :
    ∃ s2 s', s1.deactivateAll (some a) = .ok s2 ∧ s2.deactivateAll (some b) = .ok s' ∧ SwitchedOff s1 [a, b] s' := by
  obtain ⟨s2, h1, h2, h3⟩ := Space.deactivate_off (Space.reachable_inv h.1) ha.single ha.nonempty (h.2 _ ha.stored)
  obtain ⟨s3, k1, k2, k3⟩ := Space.deactivate_off h2 hb.single hb.nonempty (by rw [h3.lists]; exact h.2 _ hb.stored)
  exact ⟨s2, s3, h1, k1, h3.trans k3⟩

/-! ## C92: `velocity` -/

omit [CharZero F] in
/-- C92: `velocity` adds one dataset per pair of a density and a momentum dataset, taken in order; if the density is `rho`
and the momentum `rho u`, it holds `u`, on the grid of the density.  All datasets of the two tags are switched off. -/
theorem C92_velocity {s : Space F} (hr : Reachable s) {density momentum : Tag} (ha : Known s density) (hb : Known s momentum)
    (T label : List Char)
    (hf : ∀ p ∈ pairs s density momentum, ∀ x y, s.heap[p.1]? = some x → s.heap[p.2]? = some y →
      ∃ cells m u, HasVelocity x y cells m u) :
    ∃ s1 s', velocityCmd density momentum T label s = .ok s' ∧
      AddsEach s T (pairs s density momentum) (fun p r => ∃ x y, s.heap[p.1]? = some x ∧ s.heap[p.2]? = some y ∧
        ∀ cells m u, HasVelocity x y cells m u → Derived cells m u x r) s1 ∧
      SwitchedOff s1 [density, momentum] s' := by
  obtain ⟨s1, h1, h2, h3⟩ := zipLoop_adds (T := T) (f := ofPair fun m0 m1 => Tools.div m1 m0) hr ha.single ha.nonempty
    ha.stored hb.single hb.nonempty hb.stored label fun p hp x y hx hy =>
      ofPair_derived (D := HasVelocity x y) (by
        rintro cells n u ⟨g, g', rho, ⟨h1, h2, h3, v, h4, h5⟩, ⟨-, -, -, w, k4, k5⟩, hne⟩
        refine ⟨g, v, w, h1, h2, h3, h4, k4, (gives_zip_one (· / ·) k5 h5).congr fun i hi c _ => ?_⟩
        have := hne i hi
        field_simp) (hf p hp x y hx hy)
  obtain ⟨s2, s', k1, k2, k3⟩ := off_two ha hb h2
  refine ⟨s1, s', ?_, h3, k3⟩
  simp only [velocityCmd, h1, k1, k2, bind, Except.bind]

omit [CharZero F] in
/-- C92 fails when the numbers of datasets differ: the surplus ones get no result (there are as many results as pairs), and
are switched off all the same. -/
theorem C92_unpaired_fails {s : Space F} (hr : Reachable s) {density momentum : Tag} (ha : Known s density)
    (hb : Known s momentum) (T label : List Char)
    (hf : ∀ p ∈ pairs s density momentum, ∀ x y, s.heap[p.1]? = some x → s.heap[p.2]? = some y →
      ∃ cells m u, HasVelocity x y cells m u)
    (hlt : (visited s [density]).length < (visited s [momentum]).length) :
    ∃ s', velocityCmd density momentum T label s = .ok s' ∧
      s'.heap.length < s.heap.length + (visited s [momentum]).length ∧ ∀ id ∈ visited s [momentum], s'.active id = false := by
  obtain ⟨s1, s', h1, h2, h3⟩ := C92_velocity hr ha hb T label hf
  have hmem : ∀ id ∈ visited s [momentum], id ∈ (s1.lookup momentum).getD [] := by
    intro id hid
    rw [h2.lists]
    refine List.mem_append_left _ ?_
    simp only [visited, List.flatMap_cons, List.flatMap_nil, List.append_nil] at hid
    exact (List.mem_filter.1 hid).1
  refine ⟨s', h1, ?_, fun id hid => ?_⟩
  · have hl : s'.heap.length = s1.heap.length := by
      refine Nat.le_antisymm ?_ ?_
      all_goals
        by_contra hn
        push Not at hn
      · have hs : s1.heap[s1.heap.length]? = none := by simp
        have hs' : s'.heap[s1.heap.length]? ≠ none := by simp; omega
        by_cases h : ∀ t ∈ [density, momentum], s1.heap.length ∉ (s1.lookup t).getD []
        · rw [h3.others _ h, hs] at hs'; exact hs' rfl
        · push Not at h
          obtain ⟨t, ht, hid⟩ := h
          rw [h3.off t ht _ hid, hs] at hs'; exact hs' rfl
      · have hs : s'.heap[s'.heap.length]? = none := by simp
        have hs' : s1.heap[s'.heap.length]? ≠ none := by simp; omega
        by_cases h : ∀ t ∈ [density, momentum], s'.heap.length ∉ (s1.lookup t).getD []
        · rw [h3.others _ h] at hs; exact hs' hs
        · push Not at h
          obtain ⟨t, ht, hid⟩ := h
          rw [h3.off t ht _ hid] at hs
          exact hs' (by simpa using hs)
    rw [hl, h2.length]
    have : (pairs s density momentum).length = (visited s [density]).length := by
      simp only [pairs, List.length_zip]; omega
    omega
  · unfold Space.active
    rw [h3.off momentum (by simp) id (hmem id hid)]
    cases s1.heap[id]? <;> rfl

/-! ## C92: rotations -/

omit [CharZero F] in
/-- C92: `bparrotate` adds one dataset per pair of a vector and an electromagnetic field: the projection of the vector on the
magnetic field. -/
theorem C92_bparrotate {s : Space F} (hr : Reachable s) {array field : Tag} (ha : Known s array) (hb : Known s field)
    (T label : List Char)
    (hf : ∀ p ∈ pairs s array field, ∀ x y, s.heap[p.1]? = some x → s.heap[p.2]? = some y →
      ∃ cells n w, HasProjection x y cells n w) :
    ∃ s1 s', bparrotateCmd array field T label s = .ok s' ∧
      AddsEach s T (pairs s array field) (fun p r => ∃ x y, s.heap[p.1]? = some x ∧ s.heap[p.2]? = some y ∧
        ∀ cells n w, HasProjection x y cells n w → Derived cells n w x r) s1 ∧
      SwitchedOff s1 [array, field] s' := by
  obtain ⟨s1, h1, h2, h3⟩ := zipLoop_adds (T := T) (f := ofPair fun u b => Tools.parrotate u b "3:6".toList) hr ha.single
    ha.nonempty ha.stored hb.single hb.nonempty hb.stored label fun p hp x y hx hy =>
      ofPair_derived (D := HasProjection x y) (by
        rintro cells n w ⟨rfl, g, g', u, m, e, hm, ⟨h1, h2, h3, v, h4, h5⟩, ⟨-, -, -, b, k4, k5⟩, hw⟩
        refine ⟨g, v, b, h1, h2, h3, h4, k4, ?_⟩
        refine Gives.congr (Tools.parrotate_gives (x := 3) h5 k5 hm) fun i hi c hc => ?_
        obtain ⟨e1, ⟨t, ht⟩, e3⟩ := hw i hi
        rw [ht c hc]
        congr 1
        have t0 := ht 0 (by omega)
        have t1 := ht 1 (by omega)
        have t2 := ht 2 (by omega)
        simp only [dot, Nat.add_zero, t0, t1, t2] at e1 e3 ⊢
        rw [div_eq_iff e1]
        linear_combination e3) (hf p hp x y hx hy)
  obtain ⟨s2, s', k1, k2, k3⟩ := off_two ha hb h2
  refine ⟨s1, s', ?_, h3, k3⟩
  simp only [bparrotateCmd, h1, k1, k2, bind, Except.bind]

omit [CharZero F] in
/-- C92 fails for `parrotate` and `perprotate`: whenever there is a pair of datasets to work on, the commands raise an error
(they pass the grid and the values to `push` in the wrong order). -/
theorem C92_rotate_fails {s : Space F} (hr : Reachable s) {array rotator : Tag} (ha : Known s array) (hb : Known s rotator)
    (T label : List Char) (hp : pairs s array rotator ≠ []) :
    (∃ e, parrotateCmd array rotator T label s = .error e) ∧ ∃ e, perprotateCmd array rotator T label s = .error e := by
  obtain ⟨p, ps, hp⟩ := List.exists_cons_of_ne_nil hp
  have key : ∀ f : GData F → GData F → Except Err (List (NArr F) × NArr F), ∃ e, zipLoop (swappedPush f) (some array)
      (some rotator) T label s = .error e := fun f =>
    zipLoop_fails hr ha.single ha.nonempty ha.stored hb.single hb.nonempty hb.stored label hp fun x y _ _ => by
      unfold swappedPush
      cases f x y with
      | error e => exact ⟨e, rfl⟩
      | ok r => exact ⟨.attributeError, rfl⟩
  constructor
  · obtain ⟨e, he⟩ := key (ofPair fun u r => Tools.parrotate u r)
    exact ⟨e, by simp only [parrotateCmd, he, bind, Except.bind]⟩
  · obtain ⟨e, he⟩ := key (perpOf "0:3".toList)
    exact ⟨e, by simp only [perprotateCmd, he, bind, Except.bind]⟩

omit [CharZero F] in
/-- C92 fails for `bperprotate` on every rectilinear grid: if the first pair consists of a vector and an electromagnetic
field, the command raises an error. -/
theorem C92_bperprotate_fails {s : Space F} (hr : Reachable s) {array field : Tag} (ha : Known s array) (hb : Known s field)
    (T label : List Char) {p : Nat × Nat} {ps : List (Nat × Nat)} (hp : pairs s array field = p :: ps) {x y : GData F}
    (hx : s.heap[p.1]? = some x) (hy : s.heap[p.2]? = some y) {g g' : List (NArr F)} {cells : List Nat} {n : Nat}
    {u e : List Nat → Nat → F} (h1 : HoldsField x g cells 3 u) (h2 : HoldsField y g' cells n e) (hn : 6 ≤ n)
    (hg : g.length = cells.length)
    (hg1 : ∀ (d : Nat) (a : NArr F) (k : Nat), g[d]? = some a → cells[d]? = some k → ∃ j, a.shape = [j] ∧ j ≤ k + 1) :
    ∃ e, bperprotateCmd array field T label s = .error e := by
  obtain ⟨a1, -, -, v, a4, a5⟩ := h1
  obtain ⟨-, -, -, w, b4, b5⟩ := h2
  obtain ⟨e, he⟩ := zipLoop_fails (T := T) (f := perpOf "3:6".toList) hr ha.single ha.nonempty ha.stored hb.single hb.nonempty
    hb.stored label hp fun x' y' hx' hy' => by
      rw [hx] at hx'; cases hx'
      rw [hy] at hy'; cases hy'
      have := C43_perprotate_fails (x := 3) a5 b5 hn hg (by
        intro a ham
        obtain ⟨d, hd⟩ := List.mem_iff_getElem?.1 ham
        have hlt : d < cells.length := by rw [← hg]; exact (List.getElem?_eq_some_iff.1 hd).1
        obtain ⟨j, hj, -⟩ := hg1 d a _ hd (List.getElem?_eq_getElem hlt)
        rw [hj]; rfl) hg1
      exact ⟨.valueError, by
        simp only [perpOf, a1, a4, b4, bind, Except.bind]
        rw [show Tools.perprotate g v w "3:6".toList = _ from this]⟩
  exact ⟨e, by simp only [bperprotateCmd, he, bind, Except.bind]⟩

omit [CharZero F] in
/-- C92: where there is no pair of active datasets, `parrotate`, `perprotate` and `bperprotate` add nothing and switch off the
datasets of both tags. -/
theorem C92_rotate_nothing {s : Space F} (hr : Reachable s) {array rotator : Tag} (ha : Known s array) (hb : Known s rotator)
    (T label : List Char) (hp : pairs s array rotator = []) :
    ∀ cmd ∈ [parrotateCmd, perprotateCmd, bperprotateCmd (F := F)], ∃ s1 s', cmd array rotator T label s = .ok s' ∧
      AddsEach s T (pairs s array rotator) (fun _ _ => False) s1 ∧ SwitchedOff s1 [array, rotator] s' := by
  have key : ∀ f : GData F → GData F → Except Err (List (NArr F) × NArr F), ∃ s1 s2 s',
      zipLoop f (some array) (some rotator) T label s = .ok s1 ∧ s1.deactivateAll (some array) = .ok s2 ∧
      s2.deactivateAll (some rotator) = .ok s' ∧ AddsEach s T (pairs s array rotator) (fun _ _ => False) s1 ∧
      SwitchedOff s1 [array, rotator] s' := by
    intro f
    obtain ⟨s1, h1, h2, h3⟩ := zipLoop_adds (T := T) (f := f) (R := fun _ _ _ => False) hr ha.single ha.nonempty ha.stored
      hb.single hb.nonempty hb.stored label fun p hpp => by rw [hp] at hpp; cases hpp
    obtain ⟨s2, s', k1, k2, k3⟩ := off_two ha hb h2
    refine ⟨s1, s2, s', h1, k1, k2, ⟨h3.old, fun k x hx => ?_, h3.length, h3.lists⟩, k3⟩
    rw [hp] at hx; simp at hx
  intro cmd hc
  simp only [List.mem_cons, List.not_mem_nil, or_false] at hc
  rcases hc with rfl | rfl | rfl
  · obtain ⟨s1, s2, s', h1, h2, h3, h4⟩ := key (swappedPush (ofPair fun u r => Tools.parrotate u r))
    exact ⟨s1, s', by simp only [parrotateCmd, h1, h2, h3, bind, Except.bind], h4⟩
  · obtain ⟨s1, s2, s', h1, h2, h3, h4⟩ := key (swappedPush (perpOf "0:3".toList))
    exact ⟨s1, s', by simp only [perprotateCmd, h1, h2, h3, bind, Except.bind], h4⟩
  · obtain ⟨s1, s2, s', h1, h2, h3, h4⟩ := key (perpOf "3:6".toList)
    exact ⟨s1, s', by simp only [bperprotateCmd, h1, h2, h3, bind, Except.bind], h4⟩

/-! ## C92: agyrotropy -/

omit [Min F] [Max F] in
/-- `get_agyro` computes the named measure. -/
theorem agyro_gives {sqrt : F → F} {measure : String} (hm : measure ∈ ["swisdak", "frobenius"]) {v w : NArr F}
    {cells : List Nat} {n : Nat} {P b : List Nat → Nat → F} (hp : IsField v cells 6 P) (hn : 3 ≤ n) (hb : IsField w cells n b) :
    Gives (Tools.getAgyro sqrt v w measure.toList) cells 1 fun i _ => agyrotropy sqrt measure (P i) (b i) := by
  have e1 : ∀ i, Tools.quad (P i) (b i) / Tools.nsq (b i) = parallel (P i) (b i) := by
    intro i
    unfold parallel
    rw [show dot (b i) (b i) = Tools.nsq (b i) from rfl]
    congr 1
    simp only [Tools.quad, Tools.lit]
    push_cast
    ring
  have hP : Gives (Tools.getPPar v w) cells 1 fun i _ => parallel (P i) (b i) :=
    (Tools.pPar_gives hp hn hb).congr fun i _ _ _ => e1 i
  have hQ : Gives (Tools.getPPerp v w) cells 1 fun i _ => perpendicular (P i) (b i) :=
    (Tools.pPerp_gives hp hn hb).congr fun i _ _ _ => by
      rw [e1]
      simp [perpendicular, Tools.lit]
  simp only [List.mem_cons, List.not_mem_nil, or_false] at hm
  rcases hm with rfl | rfl
  · rw [Tools.getAgyro, if_pos (by decide)]
    refine (Tools.swisdak_gives sqrt hp hP).congr fun i _ _ _ => ?_
    simp [agyrotropy, swisdak, Tools.lit]
  · rw [Tools.getAgyro, if_neg (by decide), if_pos (by decide)]
    obtain ⟨N, hN, hG⟩ := Tools.frobenius_gives sqrt hp hn hb hP hQ
    refine hG.congr fun i _ _ _ => ?_
    have h0 : (Tools.lit 0 : F) = 0 := by simp [Tools.lit]
    have h1 : (Tools.lit 1 : F) = 1 := by simp [Tools.lit]
    have h2 : (Tools.lit 2 : F) = 2 := by simp [Tools.lit]
    have h4 : (Tools.lit 4 : F) = 4 := by simp [Tools.lit]
    rw [agyrotropy, if_neg (by decide), frobenius, h0, h1, h2, h4]
    have key : ∀ delta pab ba bb : F, N delta pab ba bb i = pab - (perpendicular (P i) (b i) *
        (delta - ba * bb / dot (b i) (b i)) + parallel (P i) (b i) * (ba * bb / dot (b i) (b i))) := by
      intro delta pab ba bb
      rw [hN]
      show pab - (_ * ba * bb / dot (b i) (b i) + _ * (_ - _ / dot (b i) (b i))) = _
      ring
    simp only [key, gyrotropic]

/-- C92: `agyro` adds one dataset per pair of a pressure tensor and a field: the chosen measure of agyrotropy with respect to
the first three components of the field, on the grid of the field. -/
theorem C92_agyro {sqrt : F → F} {measure : String} (hm : measure ∈ ["swisdak", "frobenius"]) {s : Space F} (hr : Reachable s)
    {pressure bfield : Tag} (ha : Known s pressure) (hb : Known s bfield) {T : Tag} (hT : T ≠ []) (label : List Char)
    (hf : ∀ p ∈ pairs s pressure bfield, ∀ x y, s.heap[p.1]? = some x → s.heap[p.2]? = some y →
      ∃ cells n q, HasAgyrotropy sqrt measure x y cells n q) :
    ∃ s', agyroCmd sqrt measure pressure bfield (some T) label s = .ok s' ∧
      AddsEach s T (pairs s pressure bfield) (fun p r => ∃ x y, s.heap[p.1]? = some x ∧ s.heap[p.2]? = some y ∧
        ∀ cells n q, HasAgyrotropy sqrt measure x y cells n q →
          (∃ g, y.grid = some g ∧ HoldsField r g cells n q) ∧ r.ctx.other = x.ctx.other) s' := by
  obtain ⟨s1, h1, h2, h3⟩ := zipLoop_adds (T := T)
    (f := ofPairSnd fun p b => Tools.getAgyro sqrt p b measure.toList) hr ha.single
    ha.nonempty ha.stored hb.single hb.nonempty hb.stored label fun p hp x y hx hy =>
      ofPairSnd_derived (D := HasAgyrotropy sqrt measure x y) (by
        rintro cells n q ⟨rfl, g, g', P, m, b, hm', ⟨-, -, -, v, h4, h5⟩, ⟨k1, k2, k3, w, k4, k5⟩, hw⟩
        exact ⟨g', v, w, k1, k2, k3, h4, k4, (agyro_gives hm h5 hm' k5).congr fun i hi c _ => ((hw i hi).2 c).symm⟩)
        (hf p hp x y hx hy)
  refine ⟨s1, ?_, h3⟩
  obtain ⟨c, cs, rfl⟩ := List.exists_cons_of_ne_nil hT
  rw [agyroCmd, if_pos (show measure ∈ agyroChoices from hm)]
  exact h1

/-- C92, in part: `mom_agyro -m frobenius` adds one dataset per pair of ten moments and an electromagnetic field: the
agyrotropy of the pressure tensor with respect to the magnetic field.  Missing: the measure of Swisdak, see
`C92_mom_agyro_fails`, and data with an axis of length 1 behind a longer one, see C41. -/
theorem C92_mom_agyro_partial {sqrt : F → F} {s : Space F} (hr : Reachable s)
    {species field : Tag} (ha : Known s species) (hb : Known s field) {T : Tag} (hT : T ≠ []) (label : List Char)
    (hf : ∀ p ∈ pairs s species field, ∀ x y, s.heap[p.1]? = some x → s.heap[p.2]? = some y →
      ∃ cells n q, HasGasAgyrotropy sqrt "frobenius" x y cells n q) :
    ∃ s', momAgyroCmd sqrt "frobenius" (some species) (some field) (some T) label s = .ok s' ∧
      AddsEach s T (pairs s species field) (fun p r => ∃ x y, s.heap[p.1]? = some x ∧ s.heap[p.2]? = some y ∧
        ∀ cells n q, HasGasAgyrotropy sqrt "frobenius" x y cells n q →
          (∃ g, y.grid = some g ∧ HoldsField r g cells n q) ∧ r.ctx.other = x.ctx.other) s' := by
  obtain ⟨s1, h1, h2, h3⟩ := zipLoop_adds (T := T)
    (f := ofPairSnd fun p b => Tools.tenMoment (fun p b => Tools.getAgyro sqrt p b "frobenius".toList) p b) hr ha.single
    ha.nonempty ha.stored hb.single hb.nonempty hb.stored label fun p hp x y hx hy =>
      ofPairSnd_derived (D := HasGasAgyrotropy sqrt "frobenius" x y) (by
        rintro cells n q ⟨rfl, hl, G, g', m, e, rfl, ⟨⟨hc, hd⟩, g, -, -, -, v, h4, h5⟩, hm', ⟨k1, k2, k3, w, k4, k5⟩, hw⟩
        refine ⟨g', v, w, k1, k2, k3, h4, k4, ?_⟩
        obtain ⟨p', b', hp', hb', heq⟩ := C42_ten_moment_partial h5 hc hd hl k5 hm'
          fun p b => Tools.getAgyro sqrt p b "frobenius".toList
        rw [heq]
        exact (agyro_gives (by simp) hp' (by omega) hb').congr fun i hi c _ => ((hw i hi).2 c).symm)
        (hf p hp x y hx hy)
  refine ⟨s1, ?_, h3⟩
  obtain ⟨c, cs, rfl⟩ := List.exists_cons_of_ne_nil hT
  rw [momAgyroCmd, if_pos (by decide)]
  exact h1

omit [CharZero F] in
/-- C92 fails for the measure of Swisdak in `mom_agyro`: the option does not accept the name `swisdak`; the name `swidak`,
which it accepts, ends in an error whenever there is a pair of datasets. -/
theorem C92_mom_agyro_fails {sqrt : F → F} {s : Space F} (hr : Reachable s) {species field : Tag} (ha : Known s species)
    (hb : Known s field) (tag : Option Tag) (label : List Char) (hp : pairs s species field ≠ []) :
    (∃ e, momAgyroCmd sqrt "swisdak" (some species) (some field) tag label s = .error e) ∧
      ∃ e, momAgyroCmd sqrt "swidak" (some species) (some field) tag label s = .error e := by
  refine ⟨⟨.fail, by rw [momAgyroCmd, if_neg (by decide)]⟩, ?_⟩
  obtain ⟨p, ps, hp⟩ := List.exists_cons_of_ne_nil hp
  rw [momAgyroCmd, if_pos (by decide)]
  refine zipLoop_fails hr ha.single ha.nonempty ha.stored hb.single hb.nonempty hb.stored label hp fun x y _ _ => ?_
  have hbad : ∀ p b : NArr F, Tools.getAgyro sqrt p b "swidak".toList = .error .valueError := by
    intro p b
    rw [Tools.getAgyro, if_neg (by decide), if_neg (by decide)]
  unfold ofPairSnd
  split
  · rename_i v g w _ _ _
    simp only [Tools.tenMoment, bind, Except.bind]
    cases Tools.getPij v with
    | error e => exact ⟨e, rfl⟩
    | ok p =>
      simp only
      cases w.comps 3 6 with
      | error e => exact ⟨e, rfl⟩
      | ok b => exact ⟨.valueError, by simp only [hbad]⟩
  · exact ⟨.typeError, rfl⟩

/-! ## C92: `energetics` -/

omit [Min F] [Max F] in
theorem energetics_of {x y z : GData F} {cells : List Nat} {q : List Nat → Nat → F} (h : HasEnergies x y z cells q) :
    ∃ u v g w, x.values = some u ∧ y.values = some v ∧ z.grid = some g ∧ cells.length ≤ g.length ∧ (∀ a ∈ g, a.data ≠ []) ∧
      z.values = some w ∧ Gives (Tools.energetics u v w) cells 7 q := by
  obtain ⟨hl, E, I, g, m, e, hE, hI, cE, cI, ⟨⟨-, dE⟩, gE, -, -, -, u, u1, u2⟩, ⟨⟨-, dI⟩, gI, -, -, -, v, v1, v2⟩, hm,
    ⟨w1, w2, w3, w, w4, w5⟩, hq⟩ := h
  rw [cE, hE] at u2
  rw [cI, hI] at v2
  unfold Gas.Dense at dE dI
  rw [hE] at dE
  rw [hI] at dI
  refine ⟨u, v, g, w, u1, v1, w1, w2, w3, w4, ?_⟩
  obtain ⟨s, hs, h1⟩ := C44_energetics_parts_partial u2 v2 dE dI w5 hm hl
  obtain ⟨s', hs', h2⟩ := C44_energetics_partial u2 (Or.inl rfl) v2 (Or.inl rfl) w5 hm hl
  obtain ⟨a, ha, ha1⟩ := hs
  obtain ⟨a', ha', ha1'⟩ := hs'
  rw [ha] at ha'; cases ha'
  refine ⟨a, ha, ha1.congr fun i hi c hc => ?_⟩
  have key : ∀ c < 7, s' i c = s i c := by
    intro c hc
    have e1 := ha1.get i hi c hc
    have e2 := ha1'.get i hi c hc
    rw [e1] at e2
    exact (Option.some.inj e2).symm
  obtain ⟨p0, p1, p2, p3⟩ := h1 i hi
  obtain ⟨r6, r4, r5⟩ := h2 i hi
  rw [key 6 (by omega), key 0 (by omega), key 1 (by omega), key 2 (by omega), key 3 (by omega), key 4 (by omega),
    key 5 (by omega)] at r6
  rw [key 4 (by omega)] at r4
  rw [key 5 (by omega)] at r5
  rw [hq i hi c hc]
  match c, hc with
  | 0, _ => exact p0
  | 1, _ => exact p1
  | 2, _ => exact p2
  | 3, _ => exact p3
  | 4, _ => exact r4
  | 5, _ => exact r5
  | 6, _ => rw [r6, p0, p1, p2, p3, r4, r5]; rfl

/-- C92, in part: `energetics` adds one dataset per triple of electrons, ions and field, with the internal and flow energies of
the two species, those of the electric and magnetic field and the sum, on the grid of the field.  All datasets of the three
tags are switched off.  Missing: fields with six components, see `C44_energetics_fails`, and data with an axis of length 1
behind a longer one. -/
theorem C92_energetics_partial {s : Space F} (hr : Reachable s) {elc ion field : Tag} (ha : Known s elc) (hb : Known s ion)
    (hc : Known s field) (T label : List Char)
    (hf : ∀ p ∈ triples s elc ion field, ∀ x y z, s.heap[p.1]? = some x → s.heap[p.2.1]? = some y →
      s.heap[p.2.2]? = some z → ∃ cells q, HasEnergies x y z cells q) :
    ∃ s1 s', energeticsCmd elc ion field T label s = .ok s' ∧
      AddsEach s T (triples s elc ion field) (fun p r => ∃ x y z, s.heap[p.1]? = some x ∧ s.heap[p.2.1]? = some y ∧
        s.heap[p.2.2]? = some z ∧ ∀ cells q, HasEnergies x y z cells q → Derived cells 7 q z r) s1 ∧
      SwitchedOff s1 [elc, ion, field] s' := by
  have key : ∃ s1, (triples s elc ion field).foldlM (energyStep T label) s = .ok s1 ∧
      (Reachable s1 ∧ ∀ t ∈ s.dict.map Prod.fst, t ∈ s1.dict.map Prod.fst) ∧
      AddsEach s T (triples s elc ion field) (fun p r => ∃ x y z, s.heap[p.1]? = some x ∧ s.heap[p.2.1]? = some y ∧
        s.heap[p.2.2]? = some z ∧ ∀ cells q, HasEnergies x y z cells q → Derived cells 7 q z r) s1 := by
    refine Space.foldlM_adds (s0 := s) _ _ s hr ⟨[], by simp⟩ fun p hp st ⟨rest, hrest⟩ => ?_
    obtain ⟨x, y, z, hx, hy, hz⟩ := triples_get (Space.reachable_inv hr) hp
    obtain ⟨cells, q, hq⟩ := hf p hp x y z hx hy hz
    obtain ⟨u, v, g, w, h1, h2, h3, h4, h5, h6, o, ho, hof⟩ := energetics_of hq
    obtain ⟨r, hr', -⟩ := push_field h4 h5 hof (GData.new T label z.ctx)
    obtain ⟨t1, t2, t3, t4, t5⟩ := push_tag hr'
    refine ⟨r, ?_, t1, t2, x, y, z, hx, hy, hz, fun cells' q' hq' => ?_⟩
    · simp only [energyStep, get_prefix hrest hx, get_prefix hrest hy, get_prefix hrest hz, h1, h2, h3, h6, ho, hr', bind, Except.bind]
    · obtain ⟨u', v', g', w', k1, k2, k3, k4, k5, k6, o', ho', hof'⟩ := energetics_of hq'
      rw [h1] at k1; cases k1
      rw [h2] at k2; cases k2
      rw [h3] at k3; cases k3
      rw [h6] at k6; cases k6
      rw [ho] at ho'; cases ho'
      exact ⟨⟨g, h3, t4, k4, k5, o, t5, hof'⟩, t3⟩
  obtain ⟨s1, h1, h2, h3⟩ := key
  obtain ⟨s2, a1, a2, a3⟩ := Space.deactivate_off (Space.reachable_inv h2.1) ha.single ha.nonempty (h2.2 _ ha.stored)
  obtain ⟨s3, b1, b2, b3⟩ := Space.deactivate_off a2 hb.single hb.nonempty (by rw [a3.lists]; exact h2.2 _ hb.stored)
  obtain ⟨s4, c1, c2, c3⟩ := Space.deactivate_off b2 hc.single hc.nonempty (by
    rw [b3.lists, a3.lists]; exact h2.2 _ hc.stored)
  refine ⟨s1, s4, ?_, h3, (a3.trans b3).trans c3⟩
  simp only [energeticsCmd, triplesOf_eq ha.single ha.nonempty ha.stored hb.single hb.nonempty hb.stored hc.single
    hc.nonempty hc.stored, bind, Except.bind, h1, a1, b1, c1]

/-! ## C93: `relchange` -/

omit [CharZero F] in
/-- C93 fails with a tag for the result, which is the default: the command raises an error for every tag with an active
dataset. -/
theorem C93_tag_fails {s : Space F} (hr : Reachable s) {use : Tag} (h : Known s use) {k ref : Nat}
    (hk : ((s.lookup use).getD [])[k]? = some ref) (comp : Option (List Char)) {out : Tag} (hout : out ≠ [])
    (hv : visited s [use] ≠ []) : relchangeCmd (some use) k comp out s = .error .typeError := by
  rw [relchange_eq (Space.reachable_inv hr) h.single h.nonempty h.stored hk]
  obtain ⟨id, ids, hid⟩ := List.exists_cons_of_ne_nil hv
  rw [hid, Space.foldlM_ok_cons]
  simp [relStep, hout]

omit [CharZero F] in
/-- C93, in part: in place (with an empty tag), `relchange` replaces each active dataset of the tag by its change relative to
dataset number `k` of the tag, if this reference is not itself replaced before others: it is the last of the active datasets,
or not active.  Missing: other positions of the reference, see `C93_reference_fails`. -/
theorem C93_in_place_partial {s : Space F} (hr : Reachable s) {use : Tag} (h : Known s use) {k ref : Nat}
    (hk : ((s.lookup use).getD [])[k]? = some ref) {cells : List Nat} {m : Nat} {a : List Nat → Nat → F} {comp : Option Nat}
    (hc : ∀ j, comp = some j → j < m) {r0 : GData F} {g0 : List (NArr F)} (h0 : s.heap[ref]? = some r0)
    (h1 : HoldsField r0 g0 cells m a)
    (hf : ∀ id ∈ visited s [use], ∀ d, s.heap[id]? = some d → ∃ g b, HoldsField d g cells m b)
    (hlast : ref ∉ (visited s [use]).dropLast) :
    ∃ s', relchangeCmd (some use) k (comp.map dec) [] s = .ok s' ∧
      ReplacesResults s (visited s [use]) (ChangeFrom cells m a comp) s' := by
  have hi := Space.reachable_inv hr
  rw [relchange_eq hi h.single h.nonempty h.stored hk]
  refine fold_rel (fun j hj => ?_) h1 _ s (Space.visited_nodup hi (by simp)) h0 hlast fun id hid => ?_
  · cases comp with
    | none => exact hj
    | some j' => exact hc j' rfl
  · obtain ⟨d, hd, -⟩ := Space.visited_get hi hid
    obtain ⟨g, b, hb⟩ := hf id hid d hd
    exact ⟨d, g, b, hd, hb⟩

omit [CharZero F] in
/-- C93 fails in place if other active datasets follow the reference (as with the default number 0 and more than one
dataset): the reference becomes zero, and all later datasets are compared with, and divided by, zero instead of the
reference. -/
theorem C93_reference_fails {s : Space F} (hr : Reachable s) {use : Tag} (h : Known s use) {k ref : Nat}
    (hk : ((s.lookup use).getD [])[k]? = some ref) {cells : List Nat} {m : Nat} {a : List Nat → Nat → F} {comp : Option Nat}
    (hc : ∀ j, comp = some j → j < m) {r0 : GData F} {g0 : List (NArr F)} (h0 : s.heap[ref]? = some r0)
    (h1 : HoldsField r0 g0 cells m a)
    (hf : ∀ id ∈ visited s [use], ∀ d, s.heap[id]? = some d → ∃ g b, HoldsField d g cells m b)
    {before after : List Nat} (hpos : visited s [use] = before ++ ref :: after) :
    ∃ s', relchangeCmd (some use) k (comp.map dec) [] s = .ok s' ∧
      (∃ r, s'.heap[ref]? = some r ∧ Derived cells m (fun _ _ => 0) r0 r) ∧
      ∀ id ∈ after, ∃ d r, s.heap[id]? = some d ∧ s'.heap[id]? = some r ∧ ChangeFrom cells m (fun _ _ => 0) comp d r := by
  have hi := Space.reachable_inv hr
  have hnd : (before ++ [ref] ++ after).Nodup := by
    rw [List.append_assoc]; exact hpos ▸ Space.visited_nodup hi (by simp)
  have hcomp : ∀ j < m, comp.getD j < m := by
    intro j hj
    cases comp with
    | none => exact hj
    | some j' => exact hc j' rfl
  have hget : ∀ id ∈ before ++ [ref] ++ after, ∃ d g b, s.heap[id]? = some d ∧ HoldsField d g cells m b := by
    intro id hid
    rw [List.append_assoc] at hid
    have hid : id ∈ visited s [use] := by rw [hpos]; exact hid
    obtain ⟨d, hd, -⟩ := Space.visited_get hi hid
    obtain ⟨g, b, hb⟩ := hf id hid d hd
    exact ⟨d, g, b, hd, hb⟩
  obtain ⟨hn1, hn2, hn3⟩ := List.nodup_append.1 hnd
  rw [relchange_eq hi h.single h.nonempty h.stored hk, hpos, show before ++ ref :: after = (before ++ [ref]) ++ after by simp,
    List.foldlM_append]
  obtain ⟨s1, e1, e2⟩ := fold_rel hcomp h1 (before ++ [ref]) s hn1 h0 (by
    rw [List.dropLast_concat]
    intro hm
    exact (List.nodup_append.1 hn1).2.2 _ hm _ (by simp) rfl) fun id hid => hget id (List.mem_append_left _ hid)
  obtain ⟨d, r, k1, k2, k3, k4, k5⟩ := e2.results ref (by simp)
  rw [h0] at k1; cases k1
  have hzero : Derived cells m (fun _ _ => 0) r0 r := by
    have := k5 g0 a h1
    refine ⟨?_, this.2⟩
    obtain ⟨g, p1, p2, p3, p4, v, p5, p6⟩ := this.1
    exact ⟨g, p1, p2, p3, p4, v, p5, p6.congr fun i _ c _ => by rw [sub_self, zero_div]⟩
  obtain ⟨g1, -, hz⟩ := hzero.1
  have hne : ref ∉ after := fun hm => hn3 ref (by simp) _ hm rfl
  have hout : ∀ id ∈ after, id ∉ before ++ [ref] := fun id hid hid' => hn3 id hid' _ hid rfl
  obtain ⟨s2, f1, f2⟩ := fold_rel hcomp hz after s1 hn2 k2 (fun hm => hne (List.mem_of_mem_dropLast hm)) (by
    intro id hid
    obtain ⟨d, g, b, hd, hb⟩ := hget id (List.mem_append_right _ hid)
    exact ⟨d, g, b, by rw [e2.others id (hout id hid), hd], hb⟩)
  refine ⟨s2, ?_, ⟨r, ?_, hzero⟩, fun id hid => ?_⟩
  · rw [e1]; exact f1
  · rw [f2.others ref hne, k2]
  · obtain ⟨d, r', q1, q2, -, -, q5⟩ := f2.results id hid
    exact ⟨d, r', by rw [← q1, e2.others id (hout id hid)], q2, q5⟩

/-! ## The hypotheses are met -/

namespace PairEx

/-- A dataset on a grid of two cells. -/
def ex (tag : String) (m : Nat) (f : List Nat → Nat → ℚ) (status : Bool := true) : GData ℚ :=
  { tag := tag.toList, status := status, grid := some [NArr.ofList [0, 1, 3]], values := some (ToolsEx.arr [2] m f) }

theorem ex_holds (tag : String) (m : Nat) (f : List Nat → Nat → ℚ) (st : Bool) :
    HoldsField (ex tag m f st) [NArr.ofList [0, 1, 3]] [2] m f :=
  ⟨rfl, by decide, by decide, _, rfl, ToolsEx.arr_isField ..⟩

/-- A field whose first three components are E, then B. -/
def em (i : List Nat) (c : Nat) : ℚ := i.headD 0 + c + 1

theorem em_ne (i : List Nat) (k : Nat) : dot (fun c => em i (k + c)) (fun c => em i (k + c)) ≠ 0 := by
  have : 0 < em i k := by unfold em; positivity
  have h1 : 0 < em i k * em i k := mul_pos this this
  have h2 := mul_self_nonneg (em i (k + 1))
  have h3 := mul_self_nonneg (em i (k + 2))
  simp only [dot, Nat.add_zero]
  linarith

theorem leading : LeadingOnes [2] := ⟨0, [2], rfl, by decide⟩

/-- C92, `velocity`: a switched-off density, a density and two momenta; one pair, and one momentum too many. -/
example : let x := ex "n" 1 fun i _ => ToolsEx.rho i
    let y := ex "nu" 3 fun i c => ToolsEx.rho i * ToolsEx.u i c
    let s := perform [.add { x with status := false }, .add x, .add y, .add y]
    Reachable s ∧ Known s "n".toList ∧ Known s "nu".toList ∧ pairs s "n".toList "nu".toList = [(1, 2)] ∧
      HasVelocity x y [2] 3 ToolsEx.u ∧ (visited s ["n".toList]).length < (visited s ["nu".toList]).length := by
  intro x y s
  exact ⟨Space.reachable_perform _, ⟨by decide, by decide, by decide⟩, ⟨by decide, by decide, by decide⟩, by decide,
    ⟨_, _, ToolsEx.rho, ex_holds .., ex_holds .., fun i _ => ToolsEx.rho_ne i⟩, by decide⟩

/-- C92, `bparrotate`: a vector and an electromagnetic field. -/
example : ∃ w, HasProjection (ex "u" 3 ToolsEx.u) (ex "em" 6 em) [2] 3 w := by
  refine ⟨fun i c => dot (ToolsEx.u i) (fun c => em i (3 + c)) / dot (fun c => em i (3 + c)) (fun c => em i (3 + c)) *
    em i (3 + c), rfl, _, _, _, 6, _, le_rfl, ex_holds .., ex_holds .., fun i _ => ⟨em_ne i 3, ⟨_, fun c _ => rfl⟩, ?_⟩⟩
  have := em_ne i 3
  simp only [dot] at this ⊢
  generalize hN : em i (3 + 0) * em i (3 + 0) + em i (3 + 1) * em i (3 + 1) + em i (3 + 2) * em i (3 + 2) = N at *
  field_simp
  rw [← hN]
  ring

/-- C92, `parrotate`, `perprotate`, `bperprotate`: a pair, on a rectilinear grid. -/
example : let s := perform [.add (ex "u" 3 ToolsEx.u), .add (ex "em" 6 em)]
    Reachable s ∧ Known s "u".toList ∧ Known s "em".toList ∧ pairs s "u".toList "em".toList = [(0, 1)] ∧
      ∀ (d : Nat) (a : NArr ℚ) (k : Nat), [NArr.ofList [0, 1, 3]][d]? = some a → [2][d]? = some k →
        ∃ j, a.shape = [j] ∧ j ≤ k + 1 := by
  refine ⟨Space.reachable_perform _, ⟨by decide, by decide, by decide⟩, ⟨by decide, by decide, by decide⟩, by decide, ?_⟩
  intro d a k ha hk
  match d, ha, hk with
  | 0, ha, hk => cases ha; cases hk; exact ⟨3, rfl, by decide⟩

/-- `C92_rotate_nothing`: the field is switched off already. -/
example : let s := perform [.add (ex "u" 3 ToolsEx.u), .add { ex "em" 6 em with status := false }]
    Reachable s ∧ Known s "u".toList ∧ Known s "em".toList ∧ pairs s "u".toList "em".toList = [] :=
  ⟨Space.reachable_perform _, ⟨by decide, by decide, by decide⟩, ⟨by decide, by decide, by decide⟩, by decide⟩

/-- C92, `agyro`: a pressure tensor and a field. -/
example (sqrt : ℚ → ℚ) (measure : String) : ∃ q, HasAgyrotropy sqrt measure (ex "p" 6 ToolsEx.u) (ex "b" 3 em) [2] 1 q :=
  ⟨_, rfl, _, _, _, 3, _, le_rfl, ex_holds .., ex_holds .., fun i _ => ⟨by simpa using em_ne i 0, fun _ => rfl⟩⟩

/-- C92, `mom_agyro`: ten moments and an electromagnetic field. -/
example (sqrt : ℚ → ℚ) : ∃ q, HasGasAgyrotropy sqrt "frobenius"
    (ex "ten" 10 fun i => tenMoments (ToolsEx.rho i) (ToolsEx.u i) (em i)) (ex "em" 6 em) [2] 1 q :=
  ⟨_, rfl, leading, ⟨[2], 10, ToolsEx.rho, ToolsEx.u, fun _ => 0, em, em⟩, _, 6, _, rfl,
    ⟨⟨le_rfl, fun i _ => ToolsEx.rho_ne i⟩, _, ex_holds ..⟩, le_rfl, ex_holds .., fun i _ => ⟨em_ne i 3, fun _ => rfl⟩⟩

/-- C92, `energetics`: two gases and a field with eight components. -/
example : ∃ q, HasEnergies (ex "elc" 5 fun i => fiveMoment (5 / 3) (ToolsEx.rho i) (ToolsEx.u i) (em i 0))
    (ex "ion" 5 fun i => fiveMoment (5 / 3) (ToolsEx.rho i) (ToolsEx.u i) (em i 1)) (ex "em" 8 em) [2] q :=
  ⟨_, leading, ⟨[2], 5, ToolsEx.rho, ToolsEx.u, fun i => em i 0, em, em⟩,
    ⟨[2], 5, ToolsEx.rho, ToolsEx.u, fun i => em i 1, em, em⟩, _, 8, _, rfl, rfl, rfl, rfl,
    ⟨⟨le_rfl, fun i _ => ToolsEx.rho_ne i⟩, _, ex_holds ..⟩, ⟨⟨le_rfl, fun i _ => ToolsEx.rho_ne i⟩, _, ex_holds ..⟩,
    by decide, ex_holds .., fun i _ c _ => rfl⟩

/-- C93: three datasets of one tag, one of them switched off.  Number 2 is the last active one; number 0 is not. -/
example : let s := perform [.add (ex "a" 3 ToolsEx.u), .add (ex "a" 3 em false), .add (ex "a" 3 em)]
    Reachable s ∧ Known s "a".toList ∧ visited s ["a".toList] = [0, 2] ∧
      ((s.lookup "a".toList).getD [])[2]? = some 2 ∧ 2 ∉ (visited s ["a".toList]).dropLast ∧
      ((s.lookup "a".toList).getD [])[0]? = some 0 ∧ visited s ["a".toList] = [] ++ 0 :: [2] ∧
      ∀ id ∈ visited s ["a".toList], ∀ d, s.heap[id]? = some d → ∃ g b, HoldsField d g [2] 3 b := by
  intro s
  refine ⟨Space.reachable_perform _, ⟨by decide, by decide, by decide⟩, by decide, by decide, by decide, by decide, by decide,
    ?_⟩
  intro id hid d hd
  have : id = 0 ∨ id = 2 := by
    rw [show visited s ["a".toList] = [0, 2] by decide] at hid
    simpa using hid
  rcases this with rfl | rfl <;> (cases Option.some.inj hd; exact ⟨_, _, ex_holds ..⟩)

end PairEx

end Pgkyl
