import Verif.Model.AdiosDiag
import Verif.Spec.AdiosDiag
import Verif.Lemmas.Py
import Mathlib.Data.List.Nodup
/-! # Lemmas about loading histories -/

namespace Pgkyl
namespace Adios
open Spec

theorem keyParts_digits (s : List Char) : ∀ acc : List Char, s.all isDig = true →
    keyParts acc true s = [toLex (.inr (natOfDigits (acc ++ s))), toLex (.inl [])] := by
  induction s with
  | nil => intro acc _; simp [keyParts]
  | cons c s ih =>
    intro acc h
    simp only [List.all_cons, Bool.and_eq_true] at h
    rw [keyParts, if_pos h.1, ih _ h.2]
    simp

theorem keyParts_text (s : List Char) : ∀ acc : List Char, (∀ c ∈ s, isDig c = false) →
    keyParts acc false s = [toLex (.inl ((acc ++ s).map Char.toLower))] := by
  induction s with
  | nil => intro acc _; simp [keyParts]
  | cons c s ih =>
    intro acc h
    rw [keyParts, if_neg (by simp [h c (by simp)]), ih _ fun d hd => h d (by simp [hd])]
    simp

theorem keyParts_numbered (s : List Char) (n : Nat) : ∀ acc : List Char, (∀ c ∈ s, isDig c = false) →
    keyParts acc false (s ++ dec n) = [toLex (.inl ((acc ++ s).map Char.toLower)), toLex (.inr n), toLex (.inl [])] := by
  induction s with
  | nil =>
    intro acc _
    have h1 : (dec n).all isDig = true := toDigits_all_isDig n
    have h2 : natOfDigits (dec n) = n := natOfDigits_toDigits n
    have h3 : dec n ≠ [] := toDigits_ne_nil n
    revert h1 h2 h3
    cases dec n with
    | nil => intro _ _ h; exact absurd rfl h
    | cons c cs =>
      intro h1 h2 _
      simp only [List.all_cons, Bool.and_eq_true] at h1
      rw [List.nil_append, keyParts, if_pos h1.1, keyParts_digits _ _ h1.2]
      simp only [List.singleton_append, List.append_nil, h2]
  | cons c s ih =>
    intro acc h
    rw [List.cons_append, keyParts, if_neg (by simp [h c (by simp)]), ih _ fun d hd => h d (by simp [hd])]
    simp

/-- The sorted list is the one in the order of the keys. -/
theorem naturalSort_eq {l r : List (List Char)} (hp : l.Perm r) (hr : r.Pairwise fun a b => naturalKey a < naturalKey b) :
    naturalSort l = r := by
  have hs := List.pairwise_mergeSort (le := fun a b : List Char => decide (naturalKey a ≤ naturalKey b))
    (by intro a b c h1 h2; simp only [decide_eq_true_eq] at *; exact le_trans h1 h2)
    (by intro a b; simp only [Bool.or_eq_true, decide_eq_true_eq]; exact le_total _ _) l
  have hperm : (naturalSort l).Perm r := (List.mergeSort_perm l _).trans hp
  have hinj : ∀ a ∈ r, ∀ b ∈ r, naturalKey a = naturalKey b → a = b := by
    have hn : (r.map naturalKey).Nodup := by
      rw [List.Nodup, List.pairwise_map]
      exact hr.imp fun h => ne_of_lt h
    exact fun a ha b hb e => List.inj_on_of_nodup_map hn ha hb e
  refine List.Perm.eq_of_pairwise (le := fun a b => naturalKey a ≤ naturalKey b) ?_ ?_ (hr.imp le_of_lt) hperm
  · intro a b ha hb h1 h2
    exact hinj a (hperm.mem_iff.1 ha) b hb (le_antisymm h1 h2)
  · exact hs.imp fun h => by simpa using h

variable {F : Type}

theorem key_lt {s : List Char} (hs : ∀ c ∈ s, isDig c = false) {p q : Piece F}
    (h : ∃ m, q.number = some m ∧ ∀ n, p.number = some n → n < m) :
    naturalKey (s ++ p.numText) < naturalKey (s ++ q.numText) := by
  obtain ⟨m, hm, h⟩ := h
  have e2 : q.numText = dec m := by simp [Piece.numText, hm]
  unfold naturalKey
  rw [e2, keyParts_numbered _ _ _ hs]
  cases hp : p.number with
  | none =>
    have e1 : p.numText = [] := by simp [Piece.numText, hp]
    rw [e1, List.append_nil, keyParts_text _ _ hs]
    exact List.cons_lt_cons_iff.2 (Or.inr ⟨rfl, List.nil_lt_cons _ _⟩)
  | some n =>
    have e1 : p.numText = dec n := by simp [Piece.numText, hp]
    rw [e1, keyParts_numbered _ _ _ hs]
    exact List.cons_lt_cons_iff.2 (Or.inr ⟨rfl, List.cons_lt_cons_iff.2 (Or.inl (Sum.Lex.inr_lt_inr_iff.2 (h n hp)))⟩)

theorem numText_isDig (p : Piece F) : ∀ c ∈ p.numText, isDig c = true := by
  cases hp : p.number with
  | none => simp [Piece.numText, hp]
  | some n =>
    have h1 := toDigits_all_isDig n
    rw [List.all_eq_true] at h1
    simpa [Piece.numText, hp, dec] using h1

theorem not_time_data (p : Piece F) : ¬ "TimeMesh".toList <:+: p.dataName := by
  intro h
  have : 'T' ∈ p.dataName := h.subset (by decide)
  rcases List.mem_append.1 this with h | h
  · exact absurd h (by decide)
  · exact absurd (numText_isDig p _ h) (by decide)

theorem not_data_time (p : Piece F) : ¬ "Data".toList <:+: p.timeName := by
  intro h
  have : 'D' ∈ p.timeName := h.subset (by decide)
  rcases List.mem_append.1 this with h | h
  · exact absurd h (by decide)
  · exact absurd (numText_isDig p _ h) (by decide)

theorem time_in (p : Piece F) : "TimeMesh".toList <:+: p.timeName := (List.prefix_append _ _).isInfix
theorem data_in (p : Piece F) : "Data".toList <:+: p.dataName := (List.prefix_append _ _).isInfix

/-- The two lists of names. -/
theorem sorted_names {vars others : List (List Char)} {ps : List (Piece F)} (ho : InOrder ps)
    (hv : vars.Perm (ps.map Piece.timeName ++ ps.map Piece.dataName ++ others))
    (hother : ∀ k ∈ others, ¬ "TimeMesh".toList <:+: k ∧ ¬ "Data".toList <:+: k) :
    naturalSort (vars.filter fun k => decide ("TimeMesh".toList <:+: k)) = ps.map Piece.timeName ∧
    naturalSort (vars.filter fun k => decide ("Data".toList <:+: k)) = ps.map Piece.dataName := by
  have a1 : (ps.map Piece.timeName).filter (fun k => decide ("TimeMesh".toList <:+: k)) = ps.map Piece.timeName :=
    List.filter_eq_self.2 fun k hk => by
      obtain ⟨p, _, rfl⟩ := List.mem_map.1 hk
      exact decide_eq_true (time_in p)
  have a2 : (ps.map Piece.dataName).filter (fun k => decide ("TimeMesh".toList <:+: k)) = [] :=
    List.filter_eq_nil_iff.2 fun k hk => by
      obtain ⟨p, _, rfl⟩ := List.mem_map.1 hk
      rw [decide_eq_false (not_time_data p)]; exact Bool.false_ne_true
  have a3 : others.filter (fun k => decide ("TimeMesh".toList <:+: k)) = [] :=
    List.filter_eq_nil_iff.2 fun k hk => by rw [decide_eq_false (hother k hk).1]; exact Bool.false_ne_true
  have b1 : (ps.map Piece.timeName).filter (fun k => decide ("Data".toList <:+: k)) = [] :=
    List.filter_eq_nil_iff.2 fun k hk => by
      obtain ⟨p, _, rfl⟩ := List.mem_map.1 hk
      rw [decide_eq_false (not_data_time p)]; exact Bool.false_ne_true
  have b2 : (ps.map Piece.dataName).filter (fun k => decide ("Data".toList <:+: k)) = ps.map Piece.dataName :=
    List.filter_eq_self.2 fun k hk => by
      obtain ⟨p, _, rfl⟩ := List.mem_map.1 hk
      exact decide_eq_true (data_in p)
  have b3 : others.filter (fun k => decide ("Data".toList <:+: k)) = [] :=
    List.filter_eq_nil_iff.2 fun k hk => by rw [decide_eq_false (hother k hk).2]; exact Bool.false_ne_true
  constructor
  · refine naturalSort_eq ?_ ?_
    · have := hv.filter fun k => decide ("TimeMesh".toList <:+: k)
      rwa [List.filter_append, List.filter_append, a1, a2, a3, List.append_nil, List.append_nil] at this
    · rw [List.pairwise_map]
      exact ho.imp fun h => key_lt (by decide) h
  · refine naturalSort_eq ?_ ?_
    · have := hv.filter fun k => decide ("Data".toList <:+: k)
      rwa [List.filter_append, List.filter_append, b1, b2, b3, List.append_nil, List.nil_append] at this
    · rw [List.pairwise_map]
      exact ho.imp fun h => key_lt (by decide) h

/-- The stored times, as they are used. -/
theorem times_at {p : Piece F} {a : NArr F} (h : p.TimesIn a) : atLeast1 a = ⟨[p.times.length], p.times⟩ := by
  obtain ⟨sh, da⟩ := a
  obtain ⟨h1, h2⟩ := h
  simp only at h1 h2
  subst h1
  unfold atLeast1
  rcases h2 with h2 | ⟨h2, h3⟩
  · subst h2; simp
  · subst h2; simp [h3]

/-- The stored values of a later piece, as they are used. -/
theorem rows_at {p : Piece F} {nc : Nat} {a : NArr F} (h : p.RowsIn nc a ∨ p.FlatIn nc a) :
    twoAxes (atLeast1 a) = ⟨[p.rows.length, nc], p.rows.flatten⟩ := by
  obtain ⟨sh, da⟩ := a
  rcases h with ⟨h1, h2⟩ | ⟨h1, h2, h3⟩
  · simp only at h1 h2
    subst h1 h2
    simp [atLeast1, twoAxes]
  · simp only at h1 h3
    subst h1 h2
    rcases h3 with h3 | ⟨h3, h4⟩
    · subst h3; simp [atLeast1, twoAxes]
    · subst h3; simp [atLeast1, twoAxes, h4]

theorem first_rows_at {p : Piece F} {nc : Nat} {a : NArr F} (h : p.RowsIn nc a) :
    atLeast1 a = ⟨[p.rows.length, nc], p.rows.flatten⟩ := by
  obtain ⟨sh, da⟩ := a
  obtain ⟨h1, h2⟩ := h
  simp only at h1 h2
  subst h1 h2
  simp [atLeast1]

/-- Reading the pieces after the first. -/
theorem fold_pieces {read : List Char → Except Err (NArr F)} {times : List (List Char)} {nc : Nat} (qs : List (Piece F)) :
    ∀ (k : Nat) (ts : List F) (rs : List (List F)),
    (∀ i p, qs[i]? = some p → times[k + i]? = some p.timeName) →
    (∀ p ∈ qs, (∃ a, read p.timeName = .ok a ∧ p.TimesIn a) ∧
      ∃ a, read p.dataName = .ok a ∧ (p.RowsIn nc a ∨ p.FlatIn nc a)) →
    (((qs.map Piece.dataName).zipIdx k).map Prod.swap).foldlM (diagStep read times)
        (some (⟨[ts.length], ts⟩, ⟨[rs.length, nc], rs.flatten⟩)) =
      .ok (some (⟨[(ts ++ qs.flatMap Piece.times).length], ts ++ qs.flatMap Piece.times⟩,
        ⟨[(rs ++ qs.flatMap Piece.rows).length, nc], (rs ++ qs.flatMap Piece.rows).flatten⟩)) := by
  induction qs with
  | nil => intro k ts rs _ _; simp; rfl
  | cons q qs ih =>
    intro k ts rs ht hr
    obtain ⟨⟨ta, h1, h2⟩, da, h3, h4⟩ := hr q (by simp)
    have h0 : times[k]? = some q.timeName := ht 0 q rfl
    rw [List.map_cons, List.zipIdx_cons, List.map_cons, List.foldlM_cons]
    have hstep : diagStep read times (some (⟨[ts.length], ts⟩, ⟨[rs.length, nc], rs.flatten⟩)) (Prod.swap (q.dataName, k)) =
        .ok (some (⟨[(ts ++ q.times).length], ts ++ q.times⟩, ⟨[(rs ++ q.rows).length, nc], (rs ++ q.rows).flatten⟩)) := by
      simp only [diagStep, Prod.swap, h3, h0, h1, bind, Except.bind, joinPiece, rows_at h4, times_at h2, appendRows, if_true,
        pure, Except.pure, List.length_append, List.flatten_append]
    rw [hstep]
    simp only [bind, Except.bind]
    have := ih (k + 1) (ts ++ q.times) (rs ++ q.rows)
      (fun i p e => by
        have := ht (i + 1) p (by simpa using e)
        rwa [show k + 1 + i = k + (i + 1) by omega])
      (fun p hp => hr p (by simp [hp]))
    rw [this]
    simp only [List.flatMap_cons, List.append_assoc]

theorem flatten_get {nc : Nat} {c : Nat} : ∀ (rs : List (List F)) (i : Nat) (r : List F) (v : F), (∀ r ∈ rs, r.length = nc) →
    rs[i]? = some r → r[c]? = some v → rs.flatten[i * nc + c]? = some v
  | [], i, r, v, _, h, _ => by simp at h
  | x :: rs, 0, r, v, hl, h, hv => by
    simp only [List.getElem?_cons_zero, Option.some.injEq] at h
    subst h
    have : c < x.length := (List.getElem?_eq_some_iff.1 hv).1
    rw [List.flatten_cons, Nat.zero_mul, Nat.zero_add, List.getElem?_append_left this, hv]
  | x :: rs, i + 1, r, v, hl, h, hv => by
    rw [List.getElem?_cons_succ] at h
    have hx := hl x (by simp)
    rw [List.flatten_cons, List.getElem?_append_right (by rw [hx, Nat.add_mul]; omega), hx,
      show (i + 1) * nc + c - nc = i * nc + c by rw [Nat.add_mul]; omega]
    exact flatten_get rs i r v (fun y hy => hl y (by simp [hy])) h hv

theorem total_eq {nc : Nat} : ∀ (ps : List (Piece F)), (∀ p ∈ ps, p.OK nc) →
    (ps.flatMap Piece.rows).length = (ps.flatMap Piece.times).length
  | [], _ => rfl
  | p :: ps, h => by
    rw [List.flatMap_cons, List.flatMap_cons, List.length_append, List.length_append, (h p (by simp)).1,
      total_eq ps fun q hq => h q (by simp [hq])]

/-- What the loop leaves is loaded as the whole history. -/
theorem whole_history {ps : List (Piece F)} {nc : Nat} (h : ∀ p ∈ ps, p.OK nc) :
    IsWholeHistory ps nc (NArr.squeeze ⟨[(ps.flatMap Piece.times).length], ps.flatMap Piece.times⟩)
      ⟨[(ps.flatMap Piece.rows).length, nc], (ps.flatMap Piece.rows).flatten⟩ := by
  refine ⟨rfl, fun hn => ?_, ?_, fun i r hr c v hv => ?_⟩
  · simp only [NArr.squeeze, List.filter_cons, hn, ne_eq, not_false_eq_true, decide_true, if_true, List.filter_nil]
  · simp only [total_eq ps h]
  · have hl : ∀ r ∈ ps.flatMap Piece.rows, r.length = nc := by
      intro r hr
      obtain ⟨p, hp, hr⟩ := List.mem_flatMap.1 hr
      exact (h p hp).2 r hr
    have hi : i < (ps.flatMap Piece.rows).length := (List.getElem?_eq_some_iff.1 hr).1
    have hc : c < nc := by
      rw [← hl r (List.mem_of_getElem? hr)]
      exact (List.getElem?_eq_some_iff.1 hv).1
    simp only [NArr.get?, inRange, hi, hc, decide_true, Bool.and_self, if_true, ravel, List.prod_cons, List.prod_nil,
      Nat.mul_one, Nat.add_zero]
    exact flatten_get _ i r v hl hr hv

end Adios
end Pgkyl
