import Verif.Lemmas.Swap
import Verif.Props.SelectDiff
import Verif.Props.SelectIntegrate
import Verif.Props.SelectCommands
/-!
# C158: `select` and `interpolate`, `differentiate` or `integrate` on a command line in either order

Numbers are the elements of a linearly ordered field (exact arithmetic).
-/

namespace Pgkyl
open Spec Cmd Space

variable {F : Type} [_root_.Field F] [LinearOrder F] [IsStrictOrderedRing F]

/-- `select` that overwrites gives what `select` without overwriting gives, and stores it. -/
theorem select_overwrites {pf : List Char → Option F} {d part : GData F} {comp : Option (IdxArg F)}
    {zs : List (Option (IdxArg F))} {g : List (NArr F)} {v : NArr F} (h : select pf d comp zs true = .ok (g, v, part)) :
    select pf d comp zs false = .ok (g, v, d) ∧ d.push g v = .ok part := by
  unfold select at h ⊢
  split at h
  · rename_i g0 gs values hg hv
    simp only [bind, Except.bind, pure, Except.pure, if_true, if_false, Bool.false_eq_true] at h ⊢
    split_ifs at h ⊢
    cases hs : axesSel pf (g0.shape.length == 1) 0 values.shape.dropLast (g0 :: gs) (zs.take 6) with
    | error e => rw [hs] at h; cases h
    | ok sels =>
      cases hc : compSel pf (values.shape.getLastD 0) comp with
      | error e => rw [hs] at h; simp only [hc] at h; cases h
      | ok cs =>
        rw [hs] at h
        simp only [hc] at h ⊢
        split at h
        · cases h
        · rename_i d' hp
          cases h
          exact ⟨rfl, hp⟩
  · cases h

/-- The texts given for the axes ask for these portions, before and after `interpolate`. -/
structure AsksPortions (zs zs' : List (Option (List Char))) (ps : List (Portion F)) : Prop where
  /-- of the cells of the data -/
  before : zs.map (fun z => z.map IdxArg.str) = ps.map (·.before)
  /-- of the points after it -/
  after : zs'.map (fun z => z.map IdxArg.str) = ps.map (·.after)

/-- C158, `interpolate`. -/
theorem C158_interpolate (h5 : Except Err (List (List F))) {po : Option Nat} {b : Option String} {ni : Option Nat} {s : Space F}
    (hr : Reachable s) {use : Option Tag} {ts : List Tag} (hts : Requests s use ts) (hkeys : ∀ t ∈ ts, t ∈ s.dict.map Prod.fst)
    (hnd : ts.Nodup) (l₁ l₂ l₃ l₄ : List Char) {pf : List Char → Option F} {zs zs' : List (Option (List Char))}
    (hd : ∀ id ∈ visited s ts, ∀ d, s.heap[id]? = some d → ∃ (q : DgCase F) (ps : List (Portion F)), q.Fits po b ni d ∧
      q.axes = ps.map (·.axis) ∧ List.Forall₂ Portion.OK ps (perCell q.basis q.cells.length q.points) ∧ q.cells.length ≤ 6 ∧
      AsksPortions zs zs' ps) :
    ∃ s₁ s₂ s₃, selectCmd pf none zs use none l₁ s = .ok s₁ ∧ interpolateCmd h5 po b ni use none l₂ s₁ = .ok s₂ ∧
      interpolateCmd h5 po b ni use none l₃ s = .ok s₃ ∧ selectCmd pf none zs' use none l₄ s₃ = .ok s₂ := by
  rw [← hts.tagsOf_eq] at *
  refine pushCmd_swap (Space.reachable_inv hr) hkeys hnd l₁ l₂ l₃ l₄ fun id hid d hget => ?_
  obtain ⟨q, ps, hq, hax, hps, h6, hb, ha⟩ := hd id hid d hget
  obtain ⟨g₁, v₁, part, g, v, r, gi, vi, e1, e2, e3, e4, e5⟩ := C130_select_interpolate pf hq hax hps h6 h5
  obtain ⟨k1, k2⟩ := select_overwrites e1
  obtain ⟨g', v', d', p1, hfit⟩ := select_part pf hq hax hps h6
  rw [e1] at p1
  cases p1
  obtain ⟨gi', vi', p2, hmi, hfi⟩ := interpolateOf_ok h5 hfit
  rw [e2] at p2
  cases p2
  have hlen : ps.length = q.cells.length := by
    rw [← hq.1.cells_eq, hax]; simp
  obtain ⟨h1, h2⟩ := mesh_length hmi
  obtain ⟨out, hout, -⟩ := push_field (by rw [h1]; simp [DgCase.fine, refineAll, DgCase.part]) h2 hfi d
  refine ⟨g₁, v₁, part, g, v, r, gi, vi, out, ?_, k2, e2, e3, e4, ?_, hout⟩
  · rw [Option.map_none, hb, k1]; rfl
  · rw [Option.map_none, ha, e5]; rfl

/-- C158, `differentiate`. -/
theorem C158_differentiate {po : Option Nat} {b : Option String} {ni dir : Option Nat} {s : Space F}
    (hr : Reachable s) {use : Option Tag} {ts : List Tag} (hts : Requests s use ts) (hkeys : ∀ t ∈ ts, t ∈ s.dict.map Prod.fst)
    (hnd : ts.Nodup) (l₁ l₂ l₃ l₄ : List Char) {pf : List Char → Option F} {zs zs' : List (Option (List Char))}
    (hd : ∀ id ∈ visited s ts, ∀ d, s.heap[id]? = some d → ∃ (q : DgCase F) (ps : List (Portion F)), q.Fits po b ni d ∧
      Dg.derivFns q.cells.length q.order q.basis true = .ok q.fns ∧ (∀ i, dir = some i → i < q.cells.length) ∧
      q.axes = ps.map (·.axis) ∧ List.Forall₂ Portion.OK ps (List.replicate q.cells.length q.points) ∧ q.cells.length ≤ 6 ∧
      AsksPortions zs zs' ps) :
    ∃ s₁ s₂ s₃, selectCmd pf none zs use none l₁ s = .ok s₁ ∧ differentiateCmd po b ni dir use none l₂ s₁ = .ok s₂ ∧
      differentiateCmd po b ni dir use none l₃ s = .ok s₃ ∧ selectCmd pf none zs' use none l₄ s₃ = .ok s₂ := by
  rw [← hts.tagsOf_eq] at *
  refine pushCmd_swap (Space.reachable_inv hr) hkeys hnd l₁ l₂ l₃ l₄ fun id hid d hget => ?_
  obtain ⟨q, ps, hq, hdf, hdir, hax, hps, h6, hb, ha⟩ := hd id hid d hget
  obtain ⟨g₁, v₁, part, g, v, r, gi, vi, e1, e2, e3, e4, e5⟩ := C142_select_differentiate pf hq hdf hdir hax hps h6
  obtain ⟨k1, k2⟩ := select_overwrites e1
  obtain ⟨g', v', d', p1, hfit⟩ := select_part pf hq hax hps h6
  rw [e1] at p1
  cases p1
  have hlen : ps.length = q.cells.length := by
    rw [← hq.1.cells_eq, hax]; simp
  have hl : (q.part ps).cells.length = q.cells.length := by simp [DgCase.part, hlen]
  have hpos' : ∀ x ∈ (q.part ps).cells, 0 < x := by
    intro x hx
    obtain ⟨p, hp, rfl⟩ := List.mem_map.1 hx
    obtain ⟨i, hi, rfl⟩ := List.getElem_of_mem hp
    have := ((List.forall₂_iff_get.1 hps).2 i hi (by rw [← hps.length_eq]; exact hi)).some
    simp only [List.get_eq_getElem] at this
    omega
  obtain ⟨gi', vi', p2, hmi, hfi⟩ := differentiateOf_values hfit hpos' (by rw [hl]; exact hdf) (dir := dir)
    (by intro i hi; rw [hl]; exact hdir i hi)
  rw [e2] at p2
  cases p2
  obtain ⟨h1, h2⟩ := mesh_length hmi
  obtain ⟨out, hout, -⟩ := push_field (by rw [h1]; simp [refineAll, DgCase.part]) h2 hfi d
  refine ⟨g₁, v₁, part, g, v, r, gi, vi, out, ?_, k2, e2, e3, e4, ?_, hout⟩
  · rw [Option.map_none, hb, k1]; rfl
  · rw [Option.map_none, ha, e5]; rfl

/-- C158, `integrate` over axes of which nothing is selected. -/
theorem C158_integrate {arg : List Char} {s : Space F} (hr : Reachable s) {use : Option Tag} {ts : List Tag}
    (hts : Requests s use ts) (hkeys : ∀ t ∈ ts, t ∈ s.dict.map Prod.fst) (hnd : ts.Nodup) (l₁ l₂ l₃ l₄ : List Char)
    {pf : List Char → Option F} {comp : Option (List Char)} {zs : List (Option (List Char))}
    (hd : ∀ id ∈ visited s ts, ∀ d, s.heap[id]? = some d → ∃ (axes : List (SelAxis F)) (nc : Nat) (v : NArr F) (cs A : List Nat),
      HasAxes d axes nc v ∧ (∀ a ∈ axes, a.OK) ∧ CompDenotes nc (comp.map (IdxArg.str (F := F))) cs ∧
      axes.map (·.z) = zs.map (fun z => z.map IdxArg.str) ∧ A.Nodup ∧ (∀ a ∈ A, a < axes.length) ∧
      (∀ a ∈ A, ∀ x, axes[a]? = some x → x.z = none) ∧ ApiNames axes.length (.str arg) A) :
    ∃ s₁ s₂ s₃, selectCmd pf comp zs use none l₁ s = .ok s₁ ∧ integrateCmd arg use none l₂ s₁ = .ok s₂ ∧
      integrateCmd arg use none l₃ s = .ok s₃ ∧ selectCmd pf comp zs use none l₄ s₃ = .ok s₂ := by
  rw [← hts.tagsOf_eq] at *
  refine pushCmd_swap (Space.reachable_inv hr) hkeys hnd l₁ l₂ l₃ l₄ fun id hid d hget => ?_
  obtain ⟨axes, nc, v, cs, A, hA, hax, hc, hz, hn, hlt, hw, harg⟩ := hd id hid d hget
  obtain ⟨g₁, v₁, part, g₂, v₂, whole, g, w, e1, e2, e3, e4, out, e5⟩ := select_integrate pf d hA hax hc hn hlt hw harg
  obtain ⟨k1, k2⟩ := select_overwrites e1
  obtain ⟨k3, k4⟩ := integrate_overwrites e3
  obtain ⟨nc', l', u', h1, h2, h3, -⟩ := GData.push_eq_ok e5
  rw [hz] at k1 e4
  exact ⟨g₁, v₁, part, g₂, v₂, whole, g, w, _, by rw [k1]; rfl, k2, by rw [e2]; rfl, by rw [k3]; rfl, k4, by rw [e4]; rfl,
    GData.push_ok h1 h2 h3⟩

namespace DgEx

/-- The portions of the example of C130, asked for by texts. -/
def asked : List (Portion ℚ) :=
  [⟨⟨0, 1, 2⟩, some (.str (dec 1)), some (.str (dec 2 ++ ':' :: dec 4)), 1, 2⟩,
   ⟨⟨-1, 1 / 2, 3⟩, some (.str (dec 1 ++ [':'])), some (.str (dec 2 ++ ':' :: dec 6)), 1, 3⟩]

/-- The hypotheses of C158 are met for `interpolate` and for `differentiate -d 1`: a store with the data twice, once
switched off. -/
example : let s : Space ℚ := perform [.add (stored false), .add stored]
    let zs := [some (dec 1), some (dec 1 ++ [':'])]
    let zs' := [some (dec 2 ++ ':' :: dec 4), some (dec 2 ++ ':' :: dec 6)]
    Reachable s ∧ Requests s (some "f".toList) ["f".toList] ∧ (∀ t ∈ ["f".toList], t ∈ s.dict.map Prod.fst) ∧
      visited s ["f".toList] = [1] ∧ s.heap[1]? = some stored ∧
      ∃ (q : DgCase ℚ) (ps : List (Portion ℚ)), q.Fits none none none stored ∧
        Dg.derivFns q.cells.length q.order q.basis true = .ok q.fns ∧ (∀ i, some 1 = some i → i < q.cells.length) ∧
        q.axes = ps.map (·.axis) ∧ List.Forall₂ Portion.OK ps (perCell q.basis q.cells.length q.points) ∧
        List.Forall₂ Portion.OK ps (List.replicate q.cells.length q.points) ∧ q.cells.length ≤ 6 ∧ AsksPortions zs zs' ps := by
  intro s zs zs'
  have hp : List.Forall₂ Portion.OK asked [2, 2] := by
    refine .cons ⟨by norm_num, by norm_num, .indexStr 1 (by norm_num), .range 2 4 (by norm_num) (by norm_num [Axis.refine])⟩
      (.cons ⟨by norm_num, by norm_num, .from 1 (by norm_num), .range 2 6 (by norm_num) (by norm_num [Axis.refine])⟩ .nil)
  refine ⟨Space.reachable_perform _, .listed (ts := ["f".toList]) (by decide) (by decide), by decide, by decide, rfl, storedCase 2, asked, (stored_fits true).1, fns_deriv,
    by simp [storedCase], rfl, ?_, hp, by simp [storedCase], rfl, rfl⟩
  have : perCell "serendipity" 2 2 = [2, 2] := by decide
  show List.Forall₂ Portion.OK asked (perCell "serendipity" 2 2)
  rw [this]
  exact hp

end DgEx

namespace SelIntEx

/-- The hypotheses of C158 are met for `select --z0 1 -c 1` and `integrate 1`. -/
example : let s : Space ℚ := perform [.add data]
    let axes : List (SelAxis ℚ) := [⟨[0, 1, 3], 2, some (.str (dec 1)), 1, 2⟩, ⟨[0, 2, 5, 9], 3, none, 0, 3⟩]
    Reachable s ∧ Requests s (some data.tag) [data.tag] ∧ (∀ t ∈ [data.tag], t ∈ s.dict.map Prod.fst) ∧
      visited s [data.tag] = [0] ∧ s.heap[0]? = some data ∧
      HasAxes data axes 2 ⟨[2, 3, 2], [0, 1, 10, 11, 20, 21, 100, 101, 110, 111, 120, 121]⟩ ∧ (∀ a ∈ axes, a.OK) ∧
      CompDenotes (F := ℚ) 2 (some (.str (dec 1))) [1] ∧
      axes.map (·.z) = [some (dec 1), none].map (fun z => z.map IdxArg.str) ∧ [1].Nodup ∧ (∀ a ∈ [1], a < axes.length) ∧
      (∀ a ∈ [1], ∀ x, axes[a]? = some x → x.z = none) ∧ ApiNames axes.length (.str (joinWith ',' ([1].map dec))) [1] := by
  intro s axes
  refine ⟨Space.reachable_perform _, .listed (ts := [data.tag]) (by decide) (by decide), by decide, by decide, rfl,
    ⟨rfl, rfl, rfl, rfl, rfl, by simp [axes], by simp [axes]⟩, ?_, .indexStr 1 (by omega), rfl, by simp, by simp [axes],
    by simp [axes], .str (by simp)⟩
  intro a ha
  simp only [axes, List.mem_cons, List.not_mem_nil, or_false] at ha
  rcases ha with rfl | rfl
  · exact ⟨by norm_num [Increasing], Or.inl rfl, .indexStr 1 (by decide), by simp⟩
  · exact ⟨by norm_num [Increasing], Or.inl rfl, .all, by simp⟩

end SelIntEx

end Pgkyl
