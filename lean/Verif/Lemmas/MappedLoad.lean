import Verif.Model.MappedLoad
import Verif.Spec.MappedLoad
import Verif.Lemmas.GkylOpen
import Verif.Lemmas.DgC2p
/-! Lemmas for mapped grids. -/

namespace Pgkyl
open Spec GkylReader

/-! ### The context does not influence what is read -/

section
variable {V : Type} {unpack : Bytes → Except Err (Option (Dict V))} {tt : V} {f : Bytes}

theorem readMeta_ctx {st s1 : St V} {m : Int} (h : readMeta unpack tt f st m = .ok s1) (c : Dict V) :
    ∃ c', readMeta unpack tt f { st with ctx := c } m = .ok { s1 with ctx := c' } := by
  unfold readMeta at h ⊢
  split at h
  · rename_i hm
    rw [if_pos hm]
    simp only [bind, Except.bind] at h ⊢
    split at h
    · cases h
    · rename_i unp hunp
      cases ha : advance st.offset m with
      | error e => rw [ha] at h; cases h
      | ok off =>
        rw [ha] at h
        cases h
        exact ⟨_, rfl⟩
  · rename_i hm
    rw [if_neg hm]
    cases h
    exact ⟨_, rfl⟩

theorem readHeader_ctx {st s1 : St V} (h : readHeader unpack tt f st = .ok s1) (c : Dict V) :
    ∃ c', readHeader unpack tt f { st with ctx := c } = .ok { s1 with ctx := c' } := by
  unfold readHeader at h ⊢
  cases hc : compatible f with
  | none =>
    simp only [hc, bind, Except.bind] at h ⊢
    cases hr : readI f st.offset with
    | error e => rw [hr] at h; cases h
    | ok rt => rw [hr] at h; cases h; exact ⟨_, rfl⟩
  | some v0 =>
    simp only [hc, bind, Except.bind] at h ⊢
    cases h1 : readI f (st.offset + 5) with
    | error e => rw [h1] at h; cases h
    | ok v =>
    cases h2 : readI f (st.offset + 13) with
    | error e => rw [h1, h2] at h; cases h
    | ok t =>
    cases h3 : readI f (st.offset + 21) with
    | error e => rw [h1, h2, h3] at h; cases h
    | ok m =>
    simp only [h1, h2, h3] at h ⊢
    cases h4 : readMeta unpack tt f { st with offset := st.offset + 29, version := v, fileType := t } m with
    | error e => rw [h4] at h; cases h
    | ok s2 =>
      obtain ⟨c', h5⟩ := readMeta_ctx h4 c
      rw [h4] at h
      simp only at h5
      simp only [h5]
      simp only at h
      cases hr : readI f s2.offset with
      | error e => rw [hr] at h; cases h
      | ok rt => rw [hr] at h; cases h; exact ⟨c', rfl⟩

theorem readDomain_ctx {cfg : Cfg} {st s1 : St V} {d : Dom} (h : readDomain cfg f st = .ok (d, s1)) (c : Dict V) :
    readDomain cfg f { st with ctx := c } = .ok (d, { s1 with ctx := c }) := by
  unfold readDomain at h ⊢
  simp only [bind, Except.bind, pure, Except.pure] at h ⊢
  cases h1 : readI f st.offset with
  | error e => rw [h1] at h; cases h
  | ok nd =>
    simp only [h1] at h ⊢
    split at h
    · cases h
    · rename_i hnd
      rw [if_neg hnd]
      split at h
      · cases h
      · split at h
        · cases h
        · split at h
          · rename_i hp
            rw [if_pos hp]
            split at h
            · cases h
            · split at h
              · cases h
              · cases h
                rfl
          · rename_i hp
            rw [if_neg hp]
            cases h
            rfl

theorem t2Loop_ctx : ∀ (n : Nat) {acc r : DynVec} {st s1 : St V}, t2Loop unpack tt f n acc st = .ok (r, s1) → ∀ c : Dict V,
    ∃ c', t2Loop unpack tt f n acc { st with ctx := c } = .ok (r, { s1 with ctx := c' })
  | 0, _, _, _, _, h, _ => by cases h
  | n + 1, acc, r, st, s1, h, c => by
    unfold t2Loop at h ⊢
    simp only [bind, Except.bind, pure, Except.pure] at h ⊢
    cases h1 : readI f st.offset with
    | error e => rw [h1] at h; cases h
    | ok raw =>
    cases h2 : readI f (st.offset + 8) with
    | error e => rw [h1, h2] at h; cases h
    | ok k =>
    simp only [h1, h2] at h ⊢
    split at h
    · cases h
    rename_i g1
    rw [if_neg g1]
    split at h
    · cases h
    rename_i g2
    rw [if_neg g2]
    split at h
    · cases h
    rename_i g3
    rw [if_neg g3]
    split at h
    · rename_i g4
      rw [if_pos g4]
      cases h
      exact ⟨c, rfl⟩
    · rename_i g4
      rw [if_neg g4]
      split at h
      · cases h
      · rename_i s2 hs2
        obtain ⟨c', h5⟩ := readHeader_ctx hs2 c
        simp only at h5
        simp only [h5]
        split at h
        · cases h
        · rename_i g5
          rw [if_neg g5]
          exact t2Loop_ctx n h c'

/-- The array does not depend on the context. -/
theorem load_ctx {cfg : Cfg} {c0 c1 : Dict V} {l : Loaded} (h : load unpack tt cfg c0 f = .ok (l, c1)) (c : Dict V) :
    ∃ c', load unpack tt cfg c f = .ok (l, c') := by
  unfold load at h ⊢
  simp only [bind, Except.bind, pure, Except.pure] at h ⊢
  split at h
  · cases h
  rename_i st hst
  obtain ⟨c', h1⟩ := readHeader_ctx hst c
  simp only at h1
  simp only [h1]
  split at h
  · rename_i g1
    rw [if_pos g1]
    split at h
    · cases h
    rename_i p hp
    obtain ⟨d, s2⟩ := p
    have h2 := readDomain_ctx hp c'
    simp only [h2]
    simp only at h
    split at h
    · rename_i g2
      rw [if_pos g2]
      split at h
      · cases h
      rename_i a ha
      have : readT1 cfg f { s2 with ctx := c' } d = .ok a := ha
      rw [this]
      cases h
      exact ⟨_, rfl⟩
    · rename_i g2
      rw [if_neg g2]
      split at h
      · rename_i g3
        rw [if_pos g3]
        unfold readT2 at h ⊢
        simp only [bind, Except.bind, pure, Except.pure] at h ⊢
        cases ht : t2Loop unpack tt f f.length {} s2 with
        | error e => rw [ht] at h; cases h
        | ok p =>
          obtain ⟨c'', h6⟩ := t2Loop_ctx f.length ht c'
          simp only [ht] at h
          simp only [h6]
          split at h
          · cases h
          rename_i hv
          split at hv
          · cases hv
          rename_i g6
          rw [if_neg g6]
          cases hv
          cases h
          exact ⟨_, rfl⟩
      · rename_i g3
        rw [if_neg g3]
        split at h
        · cases h
        rename_i a ha
        have : readT3 cfg f { s2 with ctx := c' } d = .ok a := ha
        rw [this]
        cases h
        exact ⟨_, rfl⟩
  · rename_i g1
    rw [if_neg g1]
    split at h
    · rename_i g3
      rw [if_pos g3]
      unfold readT2 at h ⊢
      simp only [bind, Except.bind, pure, Except.pure] at h ⊢
      cases ht : t2Loop unpack tt f f.length {} st with
      | error e => rw [ht] at h; cases h
      | ok p =>
        obtain ⟨c'', h6⟩ := t2Loop_ctx f.length ht c'
        simp only [ht] at h
        simp only [h6]
        split at h
        · cases h
        rename_i hv
        split at hv
        · cases hv
        rename_i g6
        rw [if_neg g6]
        cases hv
        cases h
        exact ⟨_, rfl⟩
    · cases h

end

/-! ### The parts of the mapping -/

section
variable {F : Type}

theorem part_div (d nd K : Nat) (h : 0 < nd) : d * (nd * K) / nd = d * K := by
  rw [show d * (nd * K) = nd * (d * K) by ring]
  exact Nat.mul_div_cancel_left _ h

theorem slice_part {v : NArr F} {cells : List Nat} {m K : Nat} {X : List Nat → Nat → F} (h : IsField v cells m X) {a b : Nat}
    (hab : b = a + K) (hb : b ≤ m) :
    IsField (v.slice (v.shape.dropLast.map (fun n => (0, n)) ++ [(a, b)])) cells K fun i k => X i (a + k) := by
  subst hab
  have hsl : v.slice (v.shape.dropLast.map (fun n => (0, n)) ++ [(a, a + K)]) =
      NArr.ofFn (cells ++ [K]) fun idx => v.get? (List.zipWith (· + ·) idx (cells.map (fun _ => 0) ++ [a])) := by
    simp [NArr.slice, h.shape, Function.comp_def]
  have hz : ∀ i k, inRange cells i = true →
      List.zipWith (· + ·) (i ++ [k]) (cells.map (fun _ => 0) ++ [a]) = i ++ [a + k] := by
    intro i k hi
    have hl := inRange_length hi
    rw [List.zipWith_append (by simpa using hl), zip_zeros hl]
    simp [Nat.add_comm]
  rw [hsl]
  exact isField_of_ofFn fun i hi k hk => by rw [hz i k hi, h.get i hi _ (by omega)]

theorem c2pGrid_ok {v : NArr F} {cells : List Nat} {nd K : Nat} {X : List Nat → Nat → F} (h : IsField v cells (nd * K) X)
    (hnd : 0 < nd) : ∃ g, c2pGrid nd v = .ok g ∧ IsCoordinates g nd cells K X := by
  refine ⟨_, by unfold c2pGrid; rw [h.shape, List.getLast?_concat], by simp, fun d hd => ?_⟩
  refine ⟨_, by rw [List.getElem?_map, List.getElem?_range hd]; rfl, ?_⟩
  have := slice_part h (a := d * K) (b := (d + 1) * K) (K := K) (by ring) (Nat.mul_le_mul_right _ hd)
  simp only [part_div _ _ _ hnd]
  rw [h.shape] at this
  exact this

theorem inRange_zeroSet : ∀ {vc : List Nat} {d n i : Nat}, (∀ n ∈ vc, 1 ≤ n) → vc[d]? = some n → i < n →
    inRange vc ((List.replicate vc.length 0).set d i) = true
  | [], _, _, _, _, h, _ => by simp at h
  | m :: vc, 0, n, i, hp, h, hi => by
    simp only [List.getElem?_cons_zero, Option.some.injEq] at h
    subst h
    have : inRange vc (List.replicate vc.length 0) = true := by
      clear hi
      have hp' : ∀ n ∈ vc, 1 ≤ n := fun n hn => hp n (List.mem_cons_of_mem _ hn)
      clear hp
      induction vc with
      | nil => rfl
      | cons a vc ih =>
        have := hp' a (by simp)
        simp only [List.length_cons, List.replicate_succ, inRange, Bool.and_eq_true, decide_eq_true_eq]
        exact ⟨by omega, ih fun n hn => hp' n (List.mem_cons_of_mem _ hn)⟩
    simp only [List.length_cons, List.replicate_succ, List.set_cons_zero, inRange, this, Bool.and_true, decide_eq_true_eq]
    exact hi
  | m :: vc, d + 1, n, i, hp, h, hi => by
    have := inRange_zeroSet (vc := vc) (fun n hn => hp n (List.mem_cons_of_mem _ hn)) (by simpa using h) hi
    have h1 := hp m (by simp)
    simp only [List.length_cons, List.replicate_succ, List.set_cons_succ, inRange, this, Bool.and_true, decide_eq_true_eq]
    omega

theorem velAxes_ok {v : NArr F} {vc : List Nat} {K : Nat} {X : List Nat → Nat → F} (h : IsField v vc (vc.length * K) X)
    (hv : 1 ≤ vc.length) (hpos : ∀ n ∈ vc, 1 ≤ n) :
    ∃ vs, velAxes v = .ok vs ∧ vs.length = vc.length ∧ ∀ d n, vc[d]? = some n → ∃ a, vs[d]? = some a ∧
      IsField a [n] K fun i k => X ((List.replicate vc.length 0).set d (i.headD 0)) (d * K + k) := by
  have hlen : v.shape.length - 1 = vc.length := by simp [h.shape]
  have hone : ∀ d n, vc[d]? = some n → ∃ a, velAxis v vc.length (vc.length * K) d = .ok a ∧
      IsField a [n] K fun i k => X ((List.replicate vc.length 0).set d (i.headD 0)) (d * K + k) := by
    intro d n hd
    have hdl : d < vc.length := (List.getElem?_eq_some_iff.1 hd).1
    have htake : v.shape.take vc.length = vc := by simp [h.shape]
    have h0 : 0 ∉ (v.shape.take vc.length).eraseIdx d := by
      rw [htake]
      intro h0
      have := hpos 0 (List.mem_of_mem_eraseIdx h0)
      omega
    have hsd : v.shape[d]? = some n := by rw [h.shape, List.getElem?_append_left hdl, hd]
    refine ⟨_, by unfold velAxis; rw [if_neg h0, hsd], ?_⟩
    have e1 : (d + 1) * (vc.length * K) / vc.length - d * (vc.length * K) / vc.length = K := by
      rw [part_div _ _ _ (by omega), part_div _ _ _ (by omega), Nat.succ_mul]
      omega
    rw [e1, part_div _ _ _ (by omega)]
    refine isField_of_ofFn (cells := [n]) (m := K) fun i hi k hk => ?_
    obtain ⟨j, rfl⟩ : ∃ j, i = [j] := by
      have := inRange_length hi
      match i, this with
      | [j], _ => exact ⟨j, rfl⟩
    simp only [inRange, Bool.and_true, decide_eq_true_eq] at hi
    have hK : d * K + k < vc.length * K := by
      have := Nat.mul_le_mul_right K hdl
      rw [Nat.succ_mul] at this
      omega
    simpa using h.get _ (inRange_zeroSet hpos hd hi) _ hK
  obtain ⟨vs, hvs⟩ := Dg.mapM_ex (g := velAxis v vc.length (vc.length * K)) (is := List.range vc.length) fun d hd => by
    obtain ⟨a, ha, -⟩ := hone d _ (List.getElem?_eq_getElem (List.mem_range.1 hd))
    exact ⟨a, ha⟩
  obtain ⟨h1, h2⟩ := Dg.mapM_range_get hvs
  refine ⟨vs, ?_, h1, fun d n hd => ?_⟩
  · unfold velAxes
    rw [hlen, h.shape, List.getLast?_concat]
    simp only [if_neg (show ¬ vc.length = 0 by omega)]
    exact hvs
  · have hdl : d < vc.length := (List.getElem?_eq_some_iff.1 hd).1
    obtain ⟨a, ha, hf⟩ := hone d n hd
    have hx := h2 d vs[d] (List.getElem?_eq_getElem (by omega))
    rw [ha] at hx
    cases hx
    exact ⟨_, List.getElem?_eq_getElem (by omega), hf⟩

end
end Pgkyl
