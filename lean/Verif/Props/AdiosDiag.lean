import Verif.Lemmas.AdiosDiag
/-! # C113: a history written in pieces is loaded whole -/

namespace Pgkyl
namespace Adios
open Spec
variable {F : Type}

/-- **C113** The pieces of a history (one per restart, numbered at the end of the names of their variables) are put together
in the order of their numbers, not of their names, and whatever the order in which the library lists them: every time and
every row of values appears, at the same place, and the number of components is the number of columns.  Later pieces may be
stored without the axis of the columns.  (What is missing: the first piece stored without that axis, see
`C113_flat_first_fails`.) -/
theorem C113_history_partial {vars : List (List Char)} {read : List Char → Except Err (NArr F)} {nc : Nat}
    {p : Piece F} {ps : List (Piece F)} (hvars : HasPieces vars (p :: ps)) (ho : InOrder (p :: ps))
    (hok : ∀ q ∈ p :: ps, q.OK nc) (htimes : ∀ q ∈ p :: ps, ∃ a, read q.timeName = .ok a ∧ q.TimesIn a)
    (hfirst : ∃ a, read p.dataName = .ok a ∧ p.RowsIn nc a)
    (hrest : ∀ q ∈ ps, ∃ a, read q.dataName = .ok a ∧ (q.RowsIn nc a ∨ q.FlatIn nc a)) :
    ∃ grid values, loadDiagnostic vars read = .ok (grid, values) ∧ IsWholeHistory (p :: ps) nc grid values ∧
      recordedComps values = .ok nc := by
  obtain ⟨others, hother, hperm⟩ := hvars
  obtain ⟨s1, s2⟩ := sorted_names ho hperm hother
  obtain ⟨ta, t1, t2⟩ := htimes p (by simp)
  obtain ⟨da, d1, d2⟩ := hfirst
  have hfold := fold_pieces (read := read) (times := (p :: ps).map Piece.timeName) (nc := nc) ps 1 p.times p.rows
    (fun i q e => by
      rw [Nat.add_comm, List.map_cons, List.getElem?_cons_succ, List.getElem?_map, e]; rfl)
    (fun q hq => ⟨htimes q (by simp [hq]), hrest q hq⟩)
  refine ⟨_, _, ?_, whole_history hok, rfl⟩
  unfold loadDiagnostic
  rw [s1, s2, loadPieces, List.map_cons (f := Piece.dataName), List.zipIdx_cons, List.map_cons (f := Prod.swap), List.foldlM_cons]
  have hstep : diagStep read (List.map Piece.timeName (p :: ps)) none (Prod.swap (p.dataName, 0)) =
      .ok (some (⟨[p.times.length], p.times⟩, ⟨[p.rows.length, nc], p.rows.flatten⟩)) := by
    simp only [diagStep, Prod.swap, d1, t1, bind, Except.bind, joinPiece, first_rows_at d2, times_at t2, List.map_cons,
      List.getElem?_cons_zero]
  rw [hstep]
  simp only [bind, Except.bind]
  rw [Nat.zero_add, hfold]
  simp only [List.flatMap_cons]

/-- **C113** (what the code gets wrong) When the *first* piece has one column and is stored without it, the history is
not loaded like others: alone, its times are taken for components, and followed by another piece, loading it fails. -/
theorem C113_flat_first_fails {vars : List (List Char)} {read : List Char → Except Err (NArr F)}
    {p : Piece F} {ps : List (Piece F)} (hvars : HasPieces vars (p :: ps)) (ho : InOrder (p :: ps))
    (htimes : ∀ q ∈ p :: ps, ∃ a, read q.timeName = .ok a ∧ q.TimesIn a)
    (hfirst : ∃ a, read p.dataName = .ok a ∧ p.FlatIn 1 a)
    (hrest : ∀ q ∈ ps, ∃ a, read q.dataName = .ok a ∧ (q.RowsIn 1 a ∨ q.FlatIn 1 a)) :
    (ps = [] → ∃ grid values, loadDiagnostic vars read = .ok (grid, values) ∧ recordedComps values = .ok p.rows.length) ∧
    (ps ≠ [] → loadDiagnostic vars read = .error .valueError) := by
  obtain ⟨others, hother, hperm⟩ := hvars
  obtain ⟨s1, s2⟩ := sorted_names ho hperm hother
  obtain ⟨ta, t1, t2⟩ := htimes p (by simp)
  obtain ⟨da, d1, d2⟩ := hfirst
  have hd : atLeast1 da = ⟨[p.rows.length], p.rows.flatten⟩ := by
    obtain ⟨sh, dat⟩ := da
    obtain ⟨e1, -, e2⟩ := d2
    simp only at e1 e2
    subst e1
    rcases e2 with e2 | ⟨e2, e3⟩
    · subst e2; simp [atLeast1]
    · subst e2; simp [atLeast1, e3]
  have hstep : diagStep read (List.map Piece.timeName (p :: ps)) none (Prod.swap (p.dataName, 0)) =
      .ok (some (⟨[p.times.length], p.times⟩, ⟨[p.rows.length], p.rows.flatten⟩)) := by
    simp only [diagStep, Prod.swap, d1, t1, bind, Except.bind, joinPiece, hd, times_at t2, List.map_cons,
      List.getElem?_cons_zero]
  constructor
  · intro e
    subst e
    refine ⟨NArr.squeeze ⟨[p.times.length], p.times⟩, ⟨[p.rows.length], p.rows.flatten⟩, ?_, rfl⟩
    unfold loadDiagnostic
    rw [s1, s2, loadPieces, List.map_cons (f := Piece.dataName), List.zipIdx_cons, List.map_cons (f := Prod.swap), List.foldlM_cons, hstep]
    rfl
  · intro e
    cases ps with
    | nil => exact absurd rfl e
    | cons q qs =>
      obtain ⟨tb, t3, t4⟩ := htimes q (by simp)
      obtain ⟨db, d3, d4⟩ := hrest q (by simp)
      have hstep2 : diagStep read (List.map Piece.timeName (p :: q :: qs))
          (some (⟨[p.times.length], p.times⟩, ⟨[p.rows.length], p.rows.flatten⟩)) (Prod.swap (q.dataName, 0 + 1)) =
          .error .valueError := by
        simp [diagStep, Prod.swap, d3, t3, bind, Except.bind, joinPiece, rows_at d4, appendRows]
      unfold loadDiagnostic
      rw [s1, s2, loadPieces, List.map_cons (f := Piece.dataName), List.zipIdx_cons, List.map_cons (f := Prod.swap), List.foldlM_cons, hstep]
      simp only [bind, Except.bind]
      rw [List.map_cons (f := Piece.dataName), List.zipIdx_cons, List.map_cons (f := Prod.swap), List.foldlM_cons, hstep2]
      rfl

/-! Three pieces of one column: `TimeMesh`, `TimeMesh2` and `TimeMesh10`, listed as strings sort; the later ones are flat. -/
namespace DiagEx

def pieces : List (Piece ℚ) :=
  [⟨none, [0, 1], [[5], [6]]⟩, ⟨some 2, [2], [[7]]⟩, ⟨some 10, [3, 4], [[8], [9]]⟩]

def names : List (List Char) :=
  ["Data".toList, "Data10".toList, "Data2".toList, "TimeMesh".toList, "TimeMesh10".toList, "TimeMesh2".toList,
    "version".toList]

def read (flat : Bool) (k : List Char) : Except Err (NArr ℚ) :=
  if k = "TimeMesh".toList then .ok ⟨[2], [0, 1]⟩
  else if k = "TimeMesh2".toList then .ok ⟨[], [2]⟩
  else if k = "TimeMesh10".toList then .ok ⟨[2], [3, 4]⟩
  else if k = "Data".toList then .ok ⟨if flat then [2] else [2, 1], [5, 6]⟩
  else if k = "Data2".toList then .ok ⟨[], [7]⟩
  else if k = "Data10".toList then .ok ⟨[2], [8, 9]⟩
  else .error .keyError

theorem has : HasPieces names pieces := ⟨["version".toList], by decide +kernel, by decide +kernel⟩
theorem order : InOrder pieces := by
  simp [InOrder, pieces]
theorem times (flat : Bool) : ∀ q ∈ pieces, ∃ a, read flat q.timeName = .ok a ∧ q.TimesIn a := by
  cases flat <;> simp only [pieces, List.forall_mem_cons] <;>
    exact ⟨⟨_, rfl, rfl, .inl rfl⟩, ⟨_, rfl, rfl, .inr ⟨rfl, rfl⟩⟩, ⟨_, rfl, rfl, .inl rfl⟩, by simp⟩
theorem rest (flat : Bool) : ∀ q ∈ pieces.tail, ∃ a, read flat q.dataName = .ok a ∧ (q.RowsIn 1 a ∨ q.FlatIn 1 a) := by
  cases flat <;> simp only [pieces, List.tail_cons, List.forall_mem_cons] <;>
    exact ⟨⟨_, rfl, .inr ⟨rfl, rfl, .inr ⟨rfl, rfl⟩⟩⟩, ⟨_, rfl, .inr ⟨rfl, rfl, .inl rfl⟩⟩, by simp⟩

example : ∃ grid values, loadDiagnostic names (read false) = .ok (grid, values) ∧ IsWholeHistory pieces 1 grid values ∧
    recordedComps values = .ok 1 :=
  C113_history_partial has order (by simp [Piece.OK]) (times false) ⟨_, rfl, rfl, rfl⟩ (rest false)

example : loadDiagnostic names (read true) = .error .valueError :=
  (C113_flat_first_fails has order (times true) ⟨_, rfl, rfl, rfl, .inl rfl⟩ (rest true)).2 (by simp)

end DiagEx
end Adios
end Pgkyl
