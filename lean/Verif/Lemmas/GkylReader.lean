import Verif.Model.GkylReader
import Verif.Lemmas.Bytes
import Verif.Lemmas.NArr
import Verif.Lemmas.Py
/-! Lemmas about the `.gkyl` reader: header, domain, block reads. -/

namespace Pgkyl
namespace GkylReader

variable {V : Type}

theorem magic_eq : Spec.gkyl0 = magic := by decide

theorem gkyl0_length : Spec.gkyl0.length = 5 := rfl

/-- The metadata of a chunk: absent, or decoded to `u`. -/
def MetaIs (unpack : Bytes → Except Err (Option (Dict V))) (mb : Bytes) (u : Option (Dict V)) :
    Prop := (mb = [] ∧ u = none) ∨ (mb ≠ [] ∧ unpack mb = .ok u)

/-- context after the metadata `u` -/
def metaCtx (tt : V) (ctx : Dict V) (u : Option (Dict V)) : Dict V :=
  match u with
  | some d => d.foldl (metaStep tt) ctx
  | none => ctx

theorem compatible_ok {f rest : Bytes} (h : f = Spec.gkyl0 ++ Spec.u64 1 ++ rest) :
    compatible f = some 1 := by
  have h5 : f.drop 5 = Spec.u64 1 ++ rest := by
    have := drop_add (f := f) (off := 0) (a := Spec.gkyl0) (b := Spec.u64 1 ++ rest) (k := 5)
      (by simp [h]) rfl
    simpa using this
  have hr : readI f 5 = .ok 1 := readI_u64 h5 (by norm_num)
  have ht : f.take 5 = magic := by
    rw [h, List.append_assoc, List.take_append_of_le_length (by simp [gkyl0_length]),
      ← gkyl0_length, List.take_length, magic_eq]
  rw [compatible, if_pos ht, hr]

theorem readHeader_ok {unpack : Bytes → Except Err (Option (Dict V))} {tt : V} {f rest mb : Bytes}
    {st : St V} {ft rt : Nat} {v : Int} {u : Option (Dict V)}
    (hc : compatible f = some v)
    (h : f.drop st.offset = Spec.header ft mb ++ Spec.u64 rt ++ rest)
    (hft : ft < 2 ^ 63) (hrt : rt < 2 ^ 63) (hm : mb.length < 2 ^ 63)
    (hu : MetaIs unpack mb u) :
    readHeader unpack tt f st = .ok
      { offset := st.offset + 37 + mb.length, dof := if rt = 1 then 4 else st.dof,
        fileType := ft, version := 1, ctx := metaCtx tt st.ctx u } := by
  have h0 : f.drop st.offset = Spec.gkyl0 ++ (Spec.u64 1 ++ (Spec.u64 ft ++
      (Spec.u64 mb.length ++ (mb ++ (Spec.u64 rt ++ rest))))) := by
    rw [h]; simp [Spec.header]
  have h1 := drop_add h0 gkyl0_length
  have h2 := drop_add h1 (u64_length _)
  have h3 := drop_add h2 (u64_length _)
  have h4 := drop_add h3 (u64_length _)
  have h5 := drop_add h4 rfl
  have r1 := readI_u64 h1 (by norm_num)
  have r2 := readI_u64 h2 hft
  have r3 := readI_u64 h3 hm
  have r5 := readI_u64 h5 hrt
  have e13 : st.offset + 13 = st.offset + 5 + 8 := by omega
  have e21 : st.offset + 21 = st.offset + 5 + 8 + 8 := by omega
  have e29 : st.offset + 29 = st.offset + 5 + 8 + 8 + 8 := by omega
  have e37 : st.offset + 37 + mb.length = st.offset + 5 + 8 + 8 + 8 + mb.length + 8 := by omega
  simp only [readHeader, hc, r1, e13, r2, e21, r3, bind, Except.bind, readMeta, e29]
  rcases hu with ⟨rfl, rfl⟩ | ⟨hne, hun⟩
  · simp only [List.length_nil, Nat.cast_zero, Int.lt_irrefl, if_false, pure, Except.pure,
      Nat.add_zero] at *
    rw [r5]
    simp only [metaCtx]
    rcases Nat.decEq rt 1 with hh | hh
    · rw [if_neg (by omega), if_neg hh]; rfl
    · subst hh; rfl
  · have hpos : 0 < mb.length := List.length_pos_iff.2 hne
    have htake : (f.drop (st.offset + 5 + 8 + 8 + 8)).take (mb.length : Int).toNat = mb := by
      rw [h4]; simp
    simp only [htake, hun, advance, pure, Except.pure]
    rw [if_pos (by omega), if_neg (by omega)]
    simp only
    have hoff : (((st.offset + 5 + 8 + 8 + 8 : Nat) : Int) + (mb.length : Int)).toNat
      = st.offset + 5 + 8 + 8 + 8 + mb.length := by omega
    rw [hoff, r5]
    simp only [e37]
    congr 2
    · rcases Nat.decEq rt 1 with hh | hh
      · rw [if_neg (by omega), if_neg hh]
      · subst hh; rfl

theorem u64s_flat (l : List Nat) : l.flatMap Spec.u64 = (l.map Spec.u64).flatten := rfl

/-- Reading the domain part of a conforming file. -/
theorem readDomain_ok {cfg : Cfg} {f rest : Bytes} {st : St V} {x : Spec.Field} {w : Nat}
    (hx : x.OK w) (hw : w = Spec.realSize x.realType) (hdof : st.dof = w)
    {asz : Nat} (hasz : asz < 2 ^ 63)
    (h : f.drop st.offset = Spec.u64 x.cells.length ++ x.cells.flatMap Spec.u64 ++ x.lower.flatten ++
      x.upper.flatten ++ Spec.u64 (x.comps * Spec.realSize x.realType) ++ Spec.u64 asz ++ rest)
    {gs : List (Int × Int)} {cg : Int × Int}
    (hg : cfg.partialLoad = true →
      parseAxes (x.cells.map fun (n : Nat) => (n : Int)) cfg.idxs = .ok gs ∧
      parseRestr x.comps (cfg.idxs.getD 6 []) = .ok cg)
    (hg' : cfg.partialLoad = false → gs = x.cells.map (fun _ => (0, 0)) ∧ cg = (0, 0)) :
    ∃ st', readDomain cfg f st = .ok
      ({ numDims := x.cells.length,
         cells := List.zipWith (fun (c : Nat) (g : Int × Int) => (c : Int) - (g.2 + g.1)) x.cells gs,
         lower := x.lower, upper := x.upper, numComps := x.comps - (cg.2 + cg.1),
         asize := asz, origCells := x.cells.map fun (n : Nat) => (n : Int),
         origComps := x.comps, globOffs := gs, compOffs := cg }, st') ∧
      st' = { st with offset := st'.offset } ∧ f.drop st'.offset = rest := by
  have hwpos : 0 < w := by rw [hw, Spec.realSize]; split <;> omega
  have h0 : f.drop st.offset = Spec.u64 x.cells.length ++ (x.cells.flatMap Spec.u64 ++
      (x.lower.flatten ++ (x.upper.flatten ++ (Spec.u64 (x.comps * Spec.realSize x.realType) ++
        (Spec.u64 asz ++ rest))))) := by rw [h]; simp
  have h1 := drop_add h0 (u64_length _)
  have h2 := drop_add h1 (flatMap_u64_length _)
  have h3 := drop_add h2 (flatten_length hx.lowerW)
  have h4 := drop_add h3 (flatten_length hx.upperW)
  have h5 := drop_add h4 (u64_length _)
  have h6 := drop_add h5 (u64_length _)
  rw [hx.lowerLen] at h3 h4 h5 h6
  rw [hx.upperLen] at h4 h5 h6
  have r0 := readI_u64 h0 hx.dims
  have r1 := readIs_u64 h1 rfl hx.cellsFit
  have r2 := fromfile_all h2 hx.lowerW hx.lowerLen
  have r3 := fromfile_all h3 hx.upperW hx.upperLen
  have r4 := readI_u64 h4 hx.elem
  have r5 := readI_u64 h5 hasz
  have hnc : ((x.comps * Spec.realSize x.realType : Nat) : Int).tdiv (w : Nat) = x.comps := by
    rw [← hw, Nat.cast_mul, Int.mul_tdiv_cancel _ (by omega)]
  refine ⟨{ st with offset := st.offset + 8 + x.cells.length * 8 + x.cells.length * w +
    x.cells.length * w + 8 + 8 }, ?_, rfl, h6⟩
  simp only [readDomain, r0, bind, Except.bind, Int.toNat_natCast, hdof]
  rw [if_neg (by omega)]
  simp only [r1, r2, r3, r4, r5, hnc]
  rcases hpl : cfg.partialLoad with _ | _
  · obtain ⟨rfl, rfl⟩ := hg' hpl
    simp only [Bool.false_eq_true, if_false, pure, Except.pure]
    congr 2
    congr 1
    · rw [List.zipWith_map_right]
      apply List.ext_getElem? ; intro i
      simp
    · rw [List.map_map]; rfl
  · obtain ⟨e1, e2⟩ := hg hpl
    simp only [if_true, e1, e2, pure, Except.pure]
    congr 2
    congr 1
    rw [List.zipWith_map_left]

end GkylReader
end Pgkyl
