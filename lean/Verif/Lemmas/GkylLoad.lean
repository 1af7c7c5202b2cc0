import Verif.Lemmas.GkylAssemble
import Verif.Lemmas.Idx
/-! Loading whole files, with restrictions. -/

namespace Pgkyl
namespace GkylReader
open Spec

theorem num_isDigit (n : Nat) : isDigitStr (Restr.num n) = true := isDigitStr_toDigits n
theorem num_val (n : Nat) : natOfDigits (Restr.num n) = n := natOfDigits_toDigits n
theorem num_colon (n : Nat) : ':' ∉ Restr.num n := isDigitStr_notMem (num_isDigit n) (by decide)
theorem num_ne (n : Nat) : Restr.num n ≠ [] := toDigits_ne_nil n
theorem pyInt_num (n : Nat) : pyInt (Restr.num n) = some (n : Int) := by
  rw [pyInt_of_isDigitStr (num_isDigit n), num_val]

theorem optNum_colon (a : Option Nat) : ':' ∉ (a.map Restr.num).getD [] := by
  cases a <;> simp [num_colon]

/-- start part -/
theorem optNum_start (a : Option Nat) :
    (if (a.map Restr.num).getD [] = [] then (.ok 0 : Except Err Int) else
      match pyInt ((a.map Restr.num).getD []) with
      | some z => .ok z
      | none => .error .valueError) = .ok ((a.getD 0 : Nat) : Int) := by
  cases a with
  | none => simp
  | some a => simp [num_ne, pyInt_num]

theorem not_isDigit_of_colon {s : List Char} (h : ':' ∈ s) : isDigitStr s = false := by
  cases hd : isDigitStr s with
  | false => rfl
  | true => exact absurd h (isDigitStr_notMem hd (by decide))

theorem parseRestr_ok {n : Nat} {r : Restr} (h : r.OK n) :
    parseRestr n (r.text.getD []) = .ok ((r.start : Int), ((n - r.stop n : Nat) : Int)) := by
  obtain ⟨h1, h2, h3⟩ := h
  cases r with
  | all => simp [Restr.text, parseRestr, isDigitStr, Restr.start, Restr.stop]
  | idx i =>
    simp only [Restr.text, Option.getD_some, parseRestr, num_isDigit, if_true, num_val,
      Restr.start, Restr.stop] at *
    congr 2; omega
  | range a b =>
    have hm : ':' ∈ (a.map Restr.num).getD [] ++ [':'] ++ (b.map Restr.num).getD [] := by simp
    have hsp : splitOn ':' ((a.map Restr.num).getD [] ++ [':'] ++ (b.map Restr.num).getD []) =
        [(a.map Restr.num).getD [], (b.map Restr.num).getD []] := by
      rw [List.append_assoc]
      exact splitOn_two (optNum_colon a) (optNum_colon b)
    simp only [Restr.start, Restr.stop] at h1 h2
    simp only [Restr.text, Option.getD_some, parseRestr, not_isDigit_of_colon hm,
      Bool.false_eq_true, if_false, if_pos hm, hsp, bind, Except.bind, Restr.start,
      Restr.stop]
    cases b with
    | none => cases a <;> simp [pure, Except.pure, num_ne, pyInt_num]
    | some b =>
      have hb : (0 : Int) < b := by simp only [Option.getD_some] at h1; omega
      have : ((n - b : Nat) : Int) = n - b := by simp only [Option.getD_some] at h2; omega
      cases a <;> simp [pure, Except.pure, num_ne, pyInt_num, this] <;> omega
  | neg a k =>
    have hk := h3 a k rfl
    have hm : ':' ∈ (a.map Restr.num).getD [] ++ [':', '-'] ++ Restr.num k := by simp
    have hsp : splitOn ':' ((a.map Restr.num).getD [] ++ [':', '-'] ++ Restr.num k) =
        [(a.map Restr.num).getD [], '-' :: Restr.num k] := by
      rw [List.append_assoc]
      exact splitOn_two (optNum_colon a) (by simp [num_colon])
    simp only [Restr.start, Restr.stop] at h1 h2
    simp only [Restr.text, Option.getD_some, parseRestr, not_isDigit_of_colon hm,
      Bool.false_eq_true, if_false, if_pos hm, hsp, bind, Except.bind, Restr.start,
      Restr.stop]
    have hpi : pyInt ('-' :: Restr.num k) = some (-(k : Int)) := pyInt_neg_toDigits k
    have : ((n - (n - k) : Nat) : Int) = k := by omega
    cases a <;> simp [pure, Except.pure, num_ne, pyInt_num, hpi, this]

/-- per-axis restrictions are in range -/
def RestrsOK : List Nat → List Restr → Prop
  | [], [] => True
  | n :: ns, r :: rs => r.OK n ∧ RestrsOK ns rs
  | _, _ => False

/-- windows `(n, g0, g1)` of the restrictions -/
def winsOf (ns : List Nat) (rs : List Restr) : List (Nat × Nat × Nat) :=
  List.zipWith (fun n r => (n, r.start, n - r.stop n)) ns rs

theorem RestrsOK.length {ns : List Nat} {rs : List Restr} (h : RestrsOK ns rs) :
    rs.length = ns.length := by
  induction ns generalizing rs with
  | nil => cases rs <;> simp [RestrsOK] at *
  | cons n ns ih => cases rs with
    | nil => simp [RestrsOK] at h
    | cons r rs => simp [ih h.2]

theorem winsOf_ok {ns : List Nat} {rs : List Restr} (h : RestrsOK ns rs) :
    WinOK (winsOf ns rs) ∧ (winsOf ns rs).map (·.1) = ns ∧
    (winsOf ns rs).map (fun w => w.2.1) = rs.map Restr.start := by
  induction ns generalizing rs with
  | nil => cases rs <;> simp [RestrsOK, winsOf, WinOK] at *
  | cons n ns ih =>
    cases rs with
    | nil => simp [RestrsOK] at h
    | cons r rs =>
      obtain ⟨i1, i2, i3⟩ := ih h.2
      obtain ⟨h1, h2, h3⟩ := h.1
      refine ⟨?_, ?_, ?_⟩
      · intro w hw
        simp only [winsOf, List.zipWith_cons_cons, List.mem_cons] at hw
        rcases hw with rfl | hw
        · simp only; omega
        · exact i1 w hw
      · simp [winsOf] at *; exact i2
      · simp [winsOf] at *; exact i3

theorem parseAxes_ok : ∀ {ns : List Nat} {rs : List Restr} (tail : List (List Char)),
    RestrsOK ns rs →
    parseAxes (ns.map fun (n : Nat) => (n : Int)) (rs.map (fun r => r.text.getD []) ++ tail) =
      .ok ((winsOf ns rs).map fun w => ((w.2.1 : Int), (w.2.2 : Int))) := by
  intro ns
  induction ns with
  | nil => intro rs tail h; cases rs <;> simp [RestrsOK, parseAxes, winsOf] at *
  | cons n ns ih =>
    intro rs tail h
    cases rs with
    | nil => simp [RestrsOK] at h
    | cons r rs =>
      simp only [List.map_cons, List.cons_append, parseAxes, parseRestr_ok h.1, ih tail h.2, bind,
        Except.bind, pure, Except.pure, winsOf, List.zipWith_cons_cons]

/-- The seven strings of a configuration. -/
theorem make_idxs {axes : List (Option (List Char))} (h : axes.length ≤ 6)
    (comp : Option (List Char)) :
    (Cfg.make axes comp).idxs = axes.map (fun o => o.getD []) ++
      (List.replicate (6 - axes.length) [] ++ [comp.getD []]) := by
  rw [Cfg.make]
  simp only
  rw [← List.append_assoc]
  congr 1
  apply List.ext_getElem?
  intro i
  rw [List.getElem?_map, List.getElem?_append, List.getElem?_map, List.getElem?_replicate]
  simp only [List.length_map]
  by_cases hi : i < axes.length
  · rw [if_pos hi, List.getElem?_range (by omega)]
    simp [hi]
  · rw [if_neg hi]
    by_cases h6 : i < 6
    · rw [List.getElem?_range h6, if_pos (by omega)]
      simp [hi]
    · rw [List.getElem?_eq_none (by simp; omega), if_neg (by omega)]; rfl

theorem make_comp {axes : List (Option (List Char))} (h : axes.length ≤ 6)
    (comp : Option (List Char)) :
    (Cfg.make axes comp).idxs.getD 6 [] = comp.getD [] := by
  rw [make_idxs h, List.getD_eq_getElem?_getD, List.getElem?_append_right (by simpa using h),
    List.getElem?_append_right (by simp)]
  simp only [List.length_map, List.length_replicate]
  have : 6 - axes.length - (6 - axes.length) = 0 := by omega
  rw [this]; rfl

theorem make_partial_false {axes : List (Option (List Char))} {comp : Option (List Char)}
    (h : (Cfg.make axes comp).partialLoad = false) : (∀ o ∈ axes, o = none) ∧ comp = none := by
  simp only [Cfg.make, Bool.or_eq_false_iff, List.any_eq_false] at h
  refine ⟨fun o ho => ?_, ?_⟩
  · have := h.1 o ho; cases o <;> simp at *
  · cases comp <;> simp at *

theorem text_none {r : Restr} (h : r.text = none) : r = .all := by
  cases r <;> simp [Restr.text] at h; rfl

theorem all_text_none {n : Nat} {r : Restr} (h : r.text = none) : r.start = 0 ∧ n - r.stop n = 0 := by
  rw [text_none h]; simp [Restr.start, Restr.stop]

/-- the reader's configuration for the given restrictions -/
def cfgOf (rs : List Restr) (cr : Restr) : Cfg := Cfg.make (rs.map Restr.text) cr.text

theorem cfgOf_full {ns : List Nat} {rs : List Restr} {cr : Restr} (nc0 : Nat)
    (h : (cfgOf rs cr).partialLoad = false) :
    (∀ v ∈ winsOf ns rs, v.2.1 = 0 ∧ v.2.2 = 0) ∧ cr.start = 0 ∧ nc0 - cr.stop nc0 = 0 := by
  obtain ⟨h1, h2⟩ := make_partial_false h
  refine ⟨?_, all_text_none h2⟩
  intro v hv
  rw [winsOf, List.mem_iff_getElem?] at hv
  obtain ⟨i, hi⟩ := hv
  rw [List.getElem?_zipWith_eq_some] at hi
  obtain ⟨n, r, _, hr, rfl⟩ := hi
  have := h1 r.text (List.mem_map.2 ⟨r, List.mem_of_getElem? hr, rfl⟩)
  exact all_text_none this

/-- The domain the reader reports for restrictions `rs`, `cr`. -/
def domOf (asz : Nat) (x : Spec.Field) (rs : List Restr) (cr : Restr) : Dom where
  numDims := x.cells.length
  cells := List.zipWith (fun (n : Nat) r => ((r.stop n - r.start : Nat) : Int)) x.cells rs
  lower := x.lower
  upper := x.upper
  numComps := ((cr.stop x.comps - cr.start : Nat) : Int)
  asize := asz
  origCells := x.cells.map fun (n : Nat) => (n : Int)
  origComps := x.comps
  globOffs := (winsOf x.cells rs).map fun w => ((w.2.1 : Int), (w.2.2 : Int))
  compOffs := ((cr.start : Int), ((x.comps - cr.stop x.comps : Nat) : Int))

theorem domOf_winIs {asz : Nat} {x : Spec.Field} {rs : List Restr} {cr : Restr} (h : RestrsOK x.cells rs)
    (hc : cr.OK x.comps) :
    WinIs (domOf asz x rs cr) (winsOf x.cells rs) x.comps cr.start (x.comps - cr.stop x.comps) where
  nd := by simp [domOf, winsOf, h.length]
  orig := by
    have := (winsOf_ok h).2.1
    simp only [domOf]
    conv_lhs => rw [← this]
    rw [List.map_map]; rfl
  offs := rfl
  cells := by
    simp only [domOf, winsOf, List.map_zipWith]
    have : ∀ (ns : List Nat) (rs : List Restr), RestrsOK ns rs →
        List.zipWith (fun (n : Nat) (r : Restr) => ((r.stop n - r.start : Nat) : Int)) ns rs =
        List.zipWith (fun (n : Nat) (r : Restr) => ((n - (n - r.stop n) - r.start : Nat) : Int)) ns rs := by
      intro ns
      induction ns with
      | nil => intro rs _; cases rs <;> rfl
      | cons n ns ih =>
        intro rs h
        cases rs with
        | nil => rfl
        | cons r rs =>
          simp only [List.zipWith_cons_cons]
          rw [ih rs h.2]
          obtain ⟨h1, h2, _⟩ := h.1
          congr 2
          omega
    exact this _ _ h
  oc := rfl
  co := rfl
  nc := by
    obtain ⟨h1, h2, _⟩ := hc
    simp only [domOf]; omega

/-- `readDomain` on a conforming file with restrictions. -/
theorem readDomain_restr {V : Type} {f rest : Bytes} {st : St V} {x : Spec.Field} {w : Nat}
    (hx : x.OK w) (hw : w = Spec.realSize x.realType) (hdof : st.dof = w)
    {rs : List Restr} {cr : Restr} {asz : Nat}
    (hasz : asz < 2 ^ 63) (h6 : (cfgOf rs cr).partialLoad = true → x.cells.length ≤ 6)
    (hr : RestrsOK x.cells rs)
    (hc : cr.OK x.comps)
    (h : f.drop st.offset = Spec.u64 x.cells.length ++ x.cells.flatMap Spec.u64 ++ x.lower.flatten ++
      x.upper.flatten ++ Spec.u64 (x.comps * Spec.realSize x.realType) ++ Spec.u64 asz ++ rest) :
    ∃ st', readDomain (cfgOf rs cr) f st = .ok (domOf asz x rs cr, st') ∧
      st' = { st with offset := st'.offset } ∧ f.drop st'.offset = rest := by
  have hwin := domOf_winIs (asz := asz) hr hc
  obtain ⟨st', e1, e2, e3⟩ := readDomain_ok (cfg := cfgOf rs cr) hx hw hdof hasz h
    (gs := (winsOf x.cells rs).map fun w => ((w.2.1 : Int), (w.2.2 : Int)))
    (cg := ((cr.start : Int), ((x.comps - cr.stop x.comps : Nat) : Int)))
    (by
      intro hp
      have hlen : (rs.map Restr.text).length ≤ 6 := by
        rw [List.length_map, hr.length]; exact h6 hp
      constructor
      · rw [cfgOf, make_idxs hlen, List.map_map]
        exact parseAxes_ok _ hr
      · rw [cfgOf, make_comp hlen]
        exact parseRestr_ok hc)
    (by
      intro hp
      obtain ⟨h1, h2, h3⟩ := cfgOf_full (ns := x.cells) x.comps hp
      refine ⟨?_, ?_⟩
      · have : x.cells = (winsOf x.cells rs).map (·.1) := (winsOf_ok hr).2.1.symm
        rw [this, List.map_map, ← this]
        apply List.map_congr_left
        intro v hv
        simp [h1 v hv]
      · rw [h2, h3]; rfl)
  refine ⟨st', ?_, e2, e3⟩
  rw [e1]
  congr 2
  have hcl : List.zipWith (fun (c : Nat) (g : Int × Int) => (c : Int) - (g.2 + g.1)) x.cells
      ((winsOf x.cells rs).map fun w => ((w.2.1 : Int), (w.2.2 : Int))) =
      (domOf asz x rs cr).cells := by
    rw [hwin.cells]
    have h1 := (winsOf_ok hr).2.1
    have h2 := (winsOf_ok hr).1
    conv_lhs => arg 2; rw [← h1]
    rw [List.zipWith_map, List.zipWith_self]
    apply List.map_congr_left
    intro v hv
    have := h2 v hv
    simp only
    omega
  have hcn : (x.comps : Int) - (((x.comps - cr.stop x.comps : Nat) : Int) + (cr.start : Int)) =
      (domOf asz x rs cr).numComps := by
    obtain ⟨h1, h2, _⟩ := hc
    simp only [domOf]; omega
  simp only [hcl, hcn]
  rfl

/-- Loading a single-range file: header and domain. -/
theorem readT1_ok {V : Type} {f : Bytes} {x : Spec.Field} {asz : Nat}
    (hasz : x.cells.prod ≤ asz)
    {rs : List Restr} {cr : Restr} (hr : RestrsOK x.cells rs) (hc : cr.OK x.comps)
    {data : NArr Word} (hd : Spec.IsData x.realType data) (hs : data.shape = x.shape)
    {st : St V} (hdof : st.dof = Spec.realSize x.realType)
    (hf : f.drop st.offset = data.data.flatten) :
    readT1 (cfgOf rs cr) f st (domOf asz x rs cr) = .ok
      (NArr.ofFn (winDims (winsOf x.cells rs) (cr.stop x.comps - cr.start)) fun idx =>
        data.get? (shift (winsOf x.cells rs) cr.start idx)) := by
  obtain ⟨hc1, hc2, hc3⟩ := hc
  have hwin := domOf_winIs (asz := asz) hr ⟨hc1, hc2, hc3⟩
  obtain ⟨hwok, hwn, hws⟩ := winsOf_ok hr
  generalize hwins : winsOf x.cells rs = wins at *
  -- axes with the full range
  let axs : List Ax := wins.map fun v => ⟨v.1, 1, v.1, v.2.1, v.2.2⟩
  have haw : axs.map (fun a => (a.n, a.g0, a.g1)) = wins := by
    simp [axs, Function.comp_def]
  have hdom := hwin.dom haw
  have hax : ∀ a ∈ axs, a.OK ∧ a.Hit := by
    intro a ha
    obtain ⟨v, hv, rfl⟩ := List.mem_map.1 ha
    have := hwok v hv
    simp only [Ax.OK, Ax.Hit, Ax.ilo, Ax.ihi]
    omega
  have hshape : axs.map (fun a : Ax => a.up - (a.lo - 1)) ++ [x.comps] = x.shape := by
    simp only [axs, List.map_map, Spec.Field.shape]
    rw [← hwn]; rfl
  have hB : data = ⟨axs.map (fun a : Ax => a.up - (a.lo - 1)) ++ [x.comps], data.data⟩ := by
    rw [hshape, ← hs]
  have hl : data.data.length = (axs.map (fun a : Ax => a.up - (a.lo - 1)) ++ [x.comps]).prod := by
    rw [hshape, ← hs]; exact hd.1
  have hhold : Holds f st.dof st.offset data.data := ⟨⟨[], by simpa using hf⟩, by rw [hdof]; exact hd.2⟩
  have hncEq : cr.start + (cr.stop x.comps - cr.start) + (x.comps - cr.stop x.comps) = x.comps := by
    omega
  cases hp : (cfgOf rs cr).partialLoad with
  | true =>
    have := getData_hit (cfg := cfgOf rs cr) (count := (data.data.length : Int))
      hdom (fun h => by rw [hp] at h; cases h) hax hncEq hhold
      hl rfl none (Or.inr ⟨rfl, hp, by
        intro a ha; obtain ⟨v, hv, rfl⟩ := List.mem_map.1 ha; exact ⟨rfl, rfl⟩⟩)
    have hcount : ∀ c : Int, getData (cfgOf rs cr) f st.dof (domOf asz x rs cr) c none st.offset =
        getData (cfgOf rs cr) f st.dof (domOf asz x rs cr) (data.data.length : Int) none st.offset := by
      intro c
      have hnm : ((zip4 blockDim (domOf asz x rs cr).origCells (domOf asz x rs cr).globOffs
          ((domOf asz x rs cr).origCells.map fun _ => 1) (domOf asz x rs cr).origCells).any
          fun q => decide (q.2.2.2 < 1)) = false := by
        have ho : (domOf asz x rs cr).origCells = axs.map fun a => (a.n : Int) := hdom.orig
        have h1 : (domOf asz x rs cr).origCells.map (fun _ => (1 : Int)) = axs.map fun a => (a.lo : Int) := by
          rw [ho, List.map_map]; simp [axs]
        have h2 : (domOf asz x rs cr).origCells = axs.map fun a => (a.up : Int) := by
          rw [ho]; simp [axs]
        rw [h1]
        conv_lhs => rw [show zip4 blockDim (domOf asz x rs cr).origCells (domOf asz x rs cr).globOffs
          (axs.map fun a => (a.lo : Int)) (domOf asz x rs cr).origCells =
          zip4 blockDim (axs.map fun a => (a.n : Int)) (domOf asz x rs cr).globOffs
          (axs.map fun a => (a.lo : Int)) (axs.map fun a => (a.up : Int)) by rw [← h2, ← ho]]
        rw [hdom.offs, zip4_map, List.any_eq_false]
        intro q hq
        obtain ⟨a, ha, rfl⟩ := List.mem_map.1 hq
        obtain ⟨hok, hhit⟩ := hax a ha
        rw [blockDim_ax a hok]
        simp only [Ax.Hit] at hhit
        simp only [decide_eq_true_eq]; omega
      simp only [getData, hp, Bool.not_true, Bool.false_eq_true, if_false, Option.map_none,
        Option.getD_none, hnm]
    simp only [readT1, bind, Except.bind, hcount, this, pure, Except.pure]
    congr 1
    simp only [partOf, NArr.ofFn]
    rw [← hB]
    have e1 : axs.map (fun a : Ax => a.ihi - a.ilo) ++ [cr.stop x.comps - cr.start] =
        winDims wins (cr.stop x.comps - cr.start) := by
      rw [winDims, map_of_wins haw]
      congr 1
      apply List.map_congr_left
      intro a ha
      obtain ⟨v, hv, rfl⟩ := List.mem_map.1 ha
      have := hwok v hv
      simp only [Ax.ilo, Ax.ihi]; omega
    have e2 : axs.map (fun a : Ax => a.ilo - (a.lo - 1)) ++ [cr.start] =
        wins.map (fun w => w.2.1) ++ [cr.start] := by
      rw [map_of_wins haw]
      congr 1
      apply List.map_congr_left
      intro a ha
      obtain ⟨v, hv, rfl⟩ := List.mem_map.1 ha
      simp only [Ax.ilo]; omega
    rw [e1, e2]
    rfl
  | false =>
    obtain ⟨z1, z2, z3⟩ := cfgOf_full (ns := x.cells) x.comps hp
    rw [hwins] at z1
    have hnc : cr.stop x.comps - cr.start = x.comps := by omega
    have hcells : (domOf asz x rs cr).cells ++ [(domOf asz x rs cr).numComps] =
        (axs.map fun a => ((a.up - (a.lo - 1) : Nat) : Int)) ++ [(x.comps : Int)] := by
      rw [hdom.cells]
      have : (domOf asz x rs cr).numComps = (x.comps : Int) := by
        rw [hdom.nc]; omega
      rw [this]
      congr 1
      apply List.map_congr_left
      intro a ha
      obtain ⟨v, hv, rfl⟩ := List.mem_map.1 ha
      have := z1 v hv
      simp only
      omega
    have hdp : 0 < st.dof := by rw [hdof, Spec.realSize]; split <;> omega
    have hcnt : (domOf asz x rs cr).asize * (domOf asz x rs cr).numComps =
        ((asz * x.comps : Nat) : Int) := by
      have h1 : (domOf asz x rs cr).numComps = (x.comps : Int) := by rw [hdom.nc]; omega
      rw [h1]; simp [domOf]
    have hle : data.data.length ≤ asz * x.comps := by
      rw [hl, hshape]; simp only [Spec.Field.shape, List.prod_append, List.prod_cons, List.prod_nil]
      rw [Nat.mul_one]
      exact Nat.mul_le_mul_right _ hasz
    have hget : getData (cfgOf rs cr) f st.dof (domOf asz x rs cr)
        ((domOf asz x rs cr).asize * (domOf asz x rs cr).numComps) none st.offset =
        .ok (some (data, []), st.offset + asz * x.comps * st.dof) := by
      simp only [getData, hp, Bool.not_false, if_true, bind, Except.bind, advance, hcnt]
      rw [if_neg (by have : (0 : Int) ≤ ((asz * x.comps : Nat) : Int) * st.dof := by positivity
                     omega)]
      simp only
      rw [fromfile_eof hf hdp (by rw [hdof]; exact hd.2) hle, hcells, reshape_ok hl]
      simp only [pure, Except.pure, ← hB]
      congr 2
    simp only [readT1, bind, Except.bind, hget, pure, Except.pure]
    congr 1
    have hwd : winDims wins (cr.stop x.comps - cr.start) = data.shape := by
      rw [hnc, winDims, hs, Spec.Field.shape, ← hwn]
      congr 1
      apply List.map_congr_left
      intro v hv
      have := z1 v hv
      omega
    have hsh : ∀ idx, inRange data.shape idx = true → shift wins cr.start idx = idx := by
      intro idx hi
      have hil : idx.length = wins.length + 1 := by
        have := inRange_length hi
        rw [← hwd] at this; simpa [winDims] using this
      have hz : wins.map (fun w => w.2.1) ++ [cr.start] = List.replicate idx.length 0 := by
        rw [hil, z2, List.replicate_succ', ← List.map_const']
        congr 1
        apply List.map_congr_left
        intro v hv
        exact (z1 v hv).1
      rw [shift, hz]
      clear hi hil hz
      induction idx with
      | nil => rfl
      | cons i is ih => simp only [List.length_cons, List.replicate_succ,
          List.zipWith_cons_cons, Nat.add_zero, ih]
    have hsome : ∀ idx, inRange data.shape idx = true →
        (data.get? (shift wins cr.start idx)).isSome := by
      intro idx hi
      rw [hsh idx hi]
      exact NArr.get?_isSome hd.1 hi
    rw [hwd]
    apply NArr.ext_get? hd.1 (NArr.ofFn_WF hsome) rfl
    intro idx hi
    rw [NArr.ofFn_get? hsome hi, hsh idx hi]

end GkylReader
end Pgkyl
