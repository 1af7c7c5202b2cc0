import Verif.Lemmas.Swap
import Verif.Lemmas.EvCommute
import Verif.Props.Commands
import Verif.Props.EvLinear
import Verif.Props.SelectCommands
/-!
# C158: fluid quantities of a part are a part of the fluid quantities

The commands `select` and `euler`, `mhd`, `tenmoment` or `magsq`, working in place, can be given in either order.
-/

namespace Pgkyl
open Spec Cmd

section
variable {F : Type} [LinearOrder F]

/-- What `select` computes. -/
abbrev selecting (pf : List Char → Option F) (zs : List (Option (List Char))) (d : GData F) :
    Except Err (List (NArr F) × NArr F) := do
  let (g, v, _) ← select pf d ((none : Option (List Char)).map .str) (zs.map fun z => z.map .str) false
  return (g, v)

/-- A function of the values, computed cell by cell, before and after selecting cells. -/
theorem swap_pointwise {pf : List Char → Option F} {zs : List (Option (List Char))} {d : GData F} {axes : List (SelAxis F)}
    {v : NArr F} {cs : List Nat} (h : Asks pf none zs d axes v cs) {nc : Nat} {q : List Nat → Nat → F}
    (hq : IsField v (axes.map (·.n)) nc q) {f : NArr F → Except Err (NArr F)} {m : Nat} {p : List Nat → Nat → F}
    (hw : Gives (f v) (axes.map (·.n)) m p)
    (hpart : ∀ out, IsField out (axes.map fun a => a.hi - a.lo) nc
        (fun i => q (List.zipWith (· + ·) i (axes.map (·.lo)))) →
      Gives (f out) (axes.map fun a => a.hi - a.lo) m fun i => p (List.zipWith (· + ·) i (axes.map (·.lo)))) :
    ∃ g₁ w₁ a g₂ w₂ b g w r, selecting pf zs d = .ok (g₁, w₁) ∧ d.push g₁ w₁ = .ok a ∧ ofValues f a = .ok (g, w) ∧
      ofValues f d = .ok (g₂, w₂) ∧ d.push g₂ w₂ = .ok b ∧ selecting pf zs b = .ok (g, w) ∧ d.push g w = .ok r := by
  obtain ⟨nc', hA, hc, hax, hz⟩ := id h
  have hnc : nc' = nc := by
    have := hA.shape
    rw [hq.shape] at this
    simpa using this.symm
  subst hnc
  have hcs : cs = List.range nc' := by cases hc; rfl
  subst hcs
  have hin : ∀ i, inRange (axes.map fun a => a.hi - a.lo) i = true →
      inRange (axes.map (·.n)) (List.zipWith (· + ·) i (axes.map (·.lo))) = true := fun i hi =>
    sel_inRange (fun a ha => by
      obtain ⟨k, hk⟩ := List.mem_iff_getElem?.1 ha
      exact ⟨(hax a ha).2.2, (by
        obtain ⟨z', hd, -⟩ := text_arg pf (hax a ha).1 (hz k a hk)
        exact denotes_le hd)⟩) hi
  -- selecting first
  obtain ⟨out, k1, k2, k3⟩ := select_text h
  have hout : IsField out (axes.map fun a => a.hi - a.lo) nc' (fun i => q (List.zipWith (· + ·) i (axes.map (·.lo)))) := by
    refine ⟨k2.1, by rw [k2.2.1, List.length_range], fun i hi c hc => ?_⟩
    rw [k2.2.2 i c c hi (List.getElem?_range hc)]
    exact hq.get _ (hin i hi) c hc
  obtain ⟨a, ha, hha⟩ := push_field (g := axes.map fun a => NArr.ofList a.nodesOut) (by simp) k3 hout d
  obtain ⟨-, -, -, a4, a5⟩ := push_tag ha
  obtain ⟨w, hw1, hw2⟩ := hpart out hout
  obtain ⟨r, hr, -⟩ := push_field (g := axes.map fun a => NArr.ofList a.nodesOut) (by simp) k3 hw2 d
  -- computing first
  obtain ⟨w₂, e1, e2⟩ := hw
  have hgr : ∀ x ∈ axes.map fun a => NArr.ofList a.nodes, x.data ≠ [] := by
    intro x hx
    obtain ⟨y, hy, rfl⟩ := List.mem_map.1 hx
    obtain ⟨t1, t2, t3⟩ := hax y hy
    obtain ⟨k, hk⟩ := List.mem_iff_getElem?.1 hy
    obtain ⟨z', hd, -⟩ := text_arg pf t1 (hz k y hk)
    have := denotes_le hd
    intro e
    have : y.nodes.length = 0 := by
      have := congrArg List.length e
      simpa [NArr.ofList] using this
    omega
  obtain ⟨b, hb, hbb⟩ := push_field (g := axes.map fun a => NArr.ofList a.nodes) (by simp) hgr e2 d
  obtain ⟨-, -, -, b4, b5⟩ := push_tag hb
  have hdims : b.numDims = axes.length := by
    obtain ⟨nc₂, l, u, -, -, -, rfl⟩ := GData.push_eq_ok hb
    simp [GData.numDims, GData.numCells, e2.shape]
  have hask : Asks pf none zs b axes w₂ (List.range m) :=
    ⟨m, ⟨b4, b5, e2.wf, e2.shape, hdims, hA.nonempty, hA.six⟩, .all, hax, hz⟩
  obtain ⟨out₂, q1, q2, -⟩ := select_text hask
  have hsame : out₂ = w := by
    refine field_ext (f := fun i => p (List.zipWith (· + ·) i (axes.map (·.lo)))) ⟨q2.1, by rw [q2.2.1, List.length_range], fun i hi c hc => ?_⟩ hw2
      fun i hi c hc => rfl
    rw [q2.2.2 i c c hi (List.getElem?_range hc)]
    exact e2.get _ (hin i hi) c hc
  subst hsame
  refine ⟨_, out, a, _, w₂, b, _, out₂, r, by rw [selecting, k1]; rfl, ha, ?_, ?_, hb, by rw [selecting, q1]; rfl, hr⟩
  · simp only [ofValues, a4, a5, hw1, bind, Except.bind, pure, Except.pure]
  · simp only [ofValues, hA.grid, hA.vals, e1, bind, Except.bind, pure, Except.pure]

end

section
variable {F : Type} [_root_.Field F] [CharZero F] [LinearOrder F]

/-- The gas in a part of the cells: `lo` are the first cells of the part. -/
def Gas.cut (G : Gas F) (cells lo : List Nat) : Gas F where
  cells := cells
  comps := G.comps
  rho i := G.rho (List.zipWith (· + ·) i lo)
  u i := G.u (List.zipWith (· + ·) i lo)
  p i := G.p (List.zipWith (· + ·) i lo)
  P i := G.P (List.zipWith (· + ·) i lo)
  B i := G.B (List.zipWith (· + ·) i lo)

omit [CharZero F] in
/-- What is common to the fluid commands. -/
theorem fluid_swap {var : Option (NArr F → Except Err (NArr F))} {ok : Gas F → Prop}
    {state : Gas F → List Nat → Nat → F} {table : Gas F → List Nat → String → Option (Nat × (Nat → F))} {name : String}
    (h : ∃ f, var = some f ∧ ∀ G, ok G → ∀ x, IsField x G.cells G.comps (state G) →
      ∃ n p, (∀ i, table G i name = some (n, p i)) ∧ Gives (f x) G.cells n p)
    (hstate : ∀ G cells lo i, state (Gas.cut G cells lo) i = state G (List.zipWith (· + ·) i lo))
    (htable : ∀ G cells lo i, table (Gas.cut G cells lo) i = table G (List.zipWith (· + ·) i lo)) {extra : List Nat → Prop}
    (hcut : ∀ G cells lo, ok G → (∀ i, inRange cells i = true → inRange G.cells (List.zipWith (· + ·) i lo) = true) →
      extra cells → ok (Gas.cut G cells lo)) {s : Space F} (hr : Reachable s)
    {use : Option Tag} {ts : List Tag} (hts : Requests s use ts) (hkeys : ∀ t ∈ ts, t ∈ s.dict.map Prod.fst)
    (hnd : ts.Nodup) (l₁ l₂ l₃ l₄ : List Char) {pf : List Char → Option F} {zs : List (Option (List Char))}
    (hd : ∀ id ∈ visited s ts, ∀ d, s.heap[id]? = some d → ∃ axes v cs G, Asks pf none zs d axes v cs ∧
      (∃ g, HoldsField d g G.cells G.comps (state G)) ∧ ok G ∧ extra (axes.map fun a => a.hi - a.lo)) :
    ∃ s₁ s₂ s₃, selectCmd pf none zs use none l₁ s = .ok s₁ ∧ fluidCmd var use none l₂ s₁ = .ok s₂ ∧
      fluidCmd var use none l₃ s = .ok s₃ ∧ selectCmd pf none zs use none l₄ s₃ = .ok s₂ := by
  obtain ⟨f, rfl, hf⟩ := h
  rw [← hts.tagsOf_eq] at *
  simp only [fluidCmd_some]
  refine pushCmd_swap (Space.reachable_inv hr) hkeys hnd l₁ l₂ l₃ l₄ fun id hid d hdd => ?_
  obtain ⟨axes, v, cs, G, h1, ⟨g, -, -, -, v', h5, h6⟩, h3, h4⟩ := hd id hid d hdd
  obtain ⟨nc, hA, -, hax, hz⟩ := _root_.id h1
  obtain rfl : v = v' := by rw [hA.vals] at h5; exact Option.some.inj h5
  have hsh : G.cells = axes.map (·.n) ∧ G.comps = nc := by
    have := hA.shape
    rw [h6.shape] at this
    exact ⟨List.append_inj_left' this rfl, by simpa using List.append_inj_right' this rfl⟩
  obtain ⟨n, p, t1, t2⟩ := hf G h3 v h6
  rw [hsh.1] at h6 t2
  refine swap_pointwise h1 h6 t2 fun out ho => ?_
  have hin : ∀ i, inRange (axes.map fun a => a.hi - a.lo) i = true →
      inRange G.cells (List.zipWith (· + ·) i (axes.map (·.lo))) = true := fun i hi => by
    rw [hsh.1]
    exact sel_inRange (fun a ha => by
      obtain ⟨k, hk⟩ := List.mem_iff_getElem?.1 ha
      exact ⟨(hax a ha).2.2, (by
        obtain ⟨z', hd, -⟩ := text_arg pf (hax a ha).1 (hz k a hk)
        exact denotes_le hd)⟩) hi
  obtain ⟨n', p', r1, r2⟩ := hf _ (hcut G _ _ h3 hin h4) out (ho.congr fun i hi c hc => by rw [hstate])
  have key : ∀ i, n = n' ∧ p (List.zipWith (· + ·) i (axes.map (·.lo))) = p' i := by
    intro i
    have := r1 i
    rw [htable, t1] at this
    simpa using this
  obtain rfl := (key []).1
  exact r2.congr fun i _ c _ => by rw [← (key i).2]

/-- **C158** for `euler`: on a command line, `select` with coordinates or cell numbers and `euler -v <name>`, both working in
place, can be given in either order: the same store results, with the same datasets, metadata and labels. -/
theorem C158_euler {sqrt : F → F} {gamma : F} (hg : gamma ≠ 1) {name : String}
    (hv : name ∈ ["density", "xvel", "yvel", "zvel", "vel", "pressure", "ke", "temp", "sound", "mach"]) {s : Space F}
    (hr : Reachable s) {use : Option Tag} {ts : List Tag} (hts : Requests s use ts) (hkeys : ∀ t ∈ ts, t ∈ s.dict.map Prod.fst)
    (hnd : ts.Nodup) (l₁ l₂ l₃ l₄ : List Char) {pf : List Char → Option F} {zs : List (Option (List Char))}
    (hd : ∀ id ∈ visited s ts, ∀ d, s.heap[id]? = some d → ∃ axes v cs G, Asks pf none zs d axes v cs ∧ IsEuler gamma d G) :
    ∃ s₁ s₂ s₃, selectCmd pf none zs use none l₁ s = .ok s₁ ∧ fluidCmd (eulerVar sqrt gamma name) use none l₂ s₁ = .ok s₂ ∧
      fluidCmd (eulerVar sqrt gamma name) use none l₃ s = .ok s₃ ∧ selectCmd pf none zs use none l₄ s₃ = .ok s₂ :=
  fluid_swap (eulerVar_gives hg hv) (table := fun G i => eulerQuantity sqrt gamma (G.rho i) (G.u i) (G.p i))
    (fun _ _ _ _ => rfl) (fun _ _ _ _ => rfl) (extra := fun _ => True)
    (fun G cells lo hG hin _ => ⟨hG.1, fun i hi => hG.2 _ (hin i hi)⟩) hr hts hkeys hnd l₁ l₂ l₃ l₄
    fun id hid d hdd => by
      obtain ⟨axes, v, cs, G, h1, h2, h3⟩ := hd id hid d hdd
      exact ⟨axes, v, cs, G, h1, h3, h2, trivial⟩

/-- **C158** for `mhd`. -/
theorem C158_mhd {sqrt : F → F} {gamma mu0 : F} (hg : gamma ≠ 1) (hmu : mu0 ≠ 0) {name : String}
    (hv : name ∈ ["density", "xvel", "yvel", "zvel", "vel", "Bx", "By", "Bz", "Bi", "magpressure", "pressure", "temp",
      "sound", "mach"]) {s : Space F}
    (hr : Reachable s) {use : Option Tag} {ts : List Tag} (hts : Requests s use ts) (hkeys : ∀ t ∈ ts, t ∈ s.dict.map Prod.fst)
    (hnd : ts.Nodup) (l₁ l₂ l₃ l₄ : List Char) {pf : List Char → Option F} {zs : List (Option (List Char))}
    (hd : ∀ id ∈ visited s ts, ∀ d, s.heap[id]? = some d → ∃ axes v cs G, Asks pf none zs d axes v cs ∧ IsMhd gamma mu0 d G) :
    ∃ s₁ s₂ s₃, selectCmd pf none zs use none l₁ s = .ok s₁ ∧ fluidCmd (mhdVar sqrt gamma mu0 name) use none l₂ s₁ = .ok s₂ ∧
      fluidCmd (mhdVar sqrt gamma mu0 name) use none l₃ s = .ok s₃ ∧ selectCmd pf none zs use none l₄ s₃ = .ok s₂ :=
  fluid_swap (mhdVar_gives hg hmu hv) (table := fun G i => mhdQuantity sqrt gamma mu0 (G.rho i) (G.u i) (G.p i) (G.B i))
    (fun _ _ _ _ => rfl) (fun _ _ _ _ => rfl) (extra := fun _ => True)
    (fun G cells lo hG hin _ => ⟨hG.1, fun i hi => hG.2 _ (hin i hi)⟩) hr hts hkeys hnd l₁ l₂ l₃ l₄
    fun id hid d hdd => by
      obtain ⟨axes, v, cs, G, h1, h2, h3⟩ := hd id hid d hdd
      exact ⟨axes, v, cs, G, h1, h3, h2, trivial⟩

/-- **C158** for `tenmoment`, in part: for `pressureTensor` neither the data nor the selected part may have an axis of length 1
behind a longer one, see `C158_tensor_fails`. -/
theorem C158_ten_partial {sqrt : F → F} {gamma : F} {name : String}
    (hv : name ∈ ["density", "xvel", "yvel", "zvel", "vel", "pressureTensor", "pxx", "pxy", "pxz", "pyy", "pyz", "pzz",
      "pressure", "ke", "temp", "sound", "mach"]) {s : Space F}
    (hr : Reachable s) {use : Option Tag} {ts : List Tag} (hts : Requests s use ts) (hkeys : ∀ t ∈ ts, t ∈ s.dict.map Prod.fst)
    (hnd : ts.Nodup) (l₁ l₂ l₃ l₄ : List Char) {pf : List Char → Option F} {zs : List (Option (List Char))}
    (hd : ∀ id ∈ visited s ts, ∀ d, s.heap[id]? = some d → ∃ axes v cs G, Asks pf none zs d axes v cs ∧ IsTen d G ∧
      (name = "pressureTensor" → LeadingOnes G.cells ∧ LeadingOnes (axes.map fun a => a.hi - a.lo))) :
    ∃ s₁ s₂ s₃, selectCmd pf none zs use none l₁ s = .ok s₁ ∧ fluidCmd (tenVar sqrt gamma name) use none l₂ s₁ = .ok s₂ ∧
      fluidCmd (tenVar sqrt gamma name) use none l₃ s = .ok s₃ ∧ selectCmd pf none zs use none l₄ s₃ = .ok s₂ :=
  fluid_swap (tenVar_gives (sqrt := sqrt) (gamma := gamma) (v := name)
      (shape := fun c => name = "pressureTensor" → LeadingOnes c) (by
        by_cases h : name = "pressureTensor"
        · exact Or.inr ⟨h, fun c hc => hc h⟩
        · left
          simp only [List.mem_cons, List.not_mem_nil, or_false] at hv ⊢
          tauto))
    (table := fun G i => tenQuantity sqrt gamma (G.rho i) (G.u i) (G.P i))
    (fun _ _ _ _ => rfl) (fun _ _ _ _ => rfl) (extra := fun c => name = "pressureTensor" → LeadingOnes c)
    (fun G cells lo hG hin he => ⟨hG.1, fun i hi => hG.2.1 _ (hin i hi), he⟩) hr hts hkeys hnd l₁ l₂ l₃ l₄
    fun id hid d hdd => by
      obtain ⟨axes, v, cs, G, h1, ⟨h2, h3⟩, h4⟩ := hd id hid d hdd
      exact ⟨axes, v, cs, G, h1, h3, ⟨h2.1, h2.2, fun h => (h4 h).1⟩, fun h => (h4 h).2⟩

omit [CharZero F] in
/-- **C158** for `magsq`. -/
theorem C158_magsq {s : Space F} (hr : Reachable s) {use : Option Tag} {ts : List Tag} (hts : Requests s use ts)
    (hkeys : ∀ t ∈ ts, t ∈ s.dict.map Prod.fst) (hnd : ts.Nodup) (l₁ l₂ l₃ l₄ : List Char) {pf : List Char → Option F}
    {zs : List (Option (List Char))}
    (hd : ∀ id ∈ visited s ts, ∀ d, s.heap[id]? = some d → ∃ axes v cs, Asks pf none zs d axes v cs ∧
      ∃ nc, 3 ≤ nc ∧ v.shape.getLast? = some nc) :
    ∃ s₁ s₂ s₃, selectCmd pf none zs use none l₁ s = .ok s₁ ∧ magsqCmd use none l₂ s₁ = .ok s₂ ∧
      magsqCmd use none l₃ s = .ok s₃ ∧ selectCmd pf none zs use none l₄ s₃ = .ok s₂ := by
  rw [← hts.tagsOf_eq] at *
  refine pushCmd_swap (Space.reachable_inv hr) hkeys hnd l₁ l₂ l₃ l₄ fun id hid d hdd => ?_
  obtain ⟨axes, v, cs, h1, nc, h2, h3⟩ := hd id hid d hdd
  obtain ⟨nc', hA, -⟩ := _root_.id h1
  obtain rfl : nc' = nc := by rw [hA.shape] at h3; simpa using h3
  have hq : IsField v (axes.map (·.n)) nc' fun i j => entry v (i ++ [j]) := by
    refine ⟨hA.wf, hA.shape, fun i hi j hj => ?_⟩
    have hin : inRange v.shape (i ++ [j]) = true := by rw [hA.shape]; exact inRange_snoc_iff.2 ⟨hi, hj⟩
    obtain ⟨x, hx⟩ := Option.isSome_iff_exists.1 (NArr.get?_isSome hA.wf hin)
    simp [entry, hx]
  exact swap_pointwise h1 hq (Tools.magSq_three hq h2) fun out ho => Tools.magSq_three ho h2

/-- **C158** fails for the pressure tensor: it can be computed of the whole data, and part of the result selected, but if the
part has an axis of length 1 behind a longer one (one cell number given for a later axis), computing the tensor of the part
raises an error. -/
theorem C158_tensor_fails {pf : List Char → Option F} {zs : List (Option (List Char))} {d : GData F} {axes : List (SelAxis F)}
    {v : NArr F} {cs : List Nat} (h : Asks pf none zs d axes v cs) {G : Gas F} (hG : IsTen d G) (hl : LeadingOnes G.cells)
    (hp : ¬ LeadingOnes (axes.map fun a => a.hi - a.lo)) :
    (∃ g₁ w₁ part, selecting pf zs d = .ok (g₁, w₁) ∧ d.push g₁ w₁ = .ok part ∧
      ofValues Tools.getPij part = .error .valueError) ∧
    ∃ g w whole g₂ w₂, ofValues Tools.getPij d = .ok (g, w) ∧ d.push g w = .ok whole ∧
      selecting pf zs whole = .ok (g₂, w₂) := by
  obtain ⟨⟨h10, hr⟩, g, k1, k2, k3, v', k4, k5⟩ := hG
  obtain ⟨nc, hA, hc, hax, hz⟩ := id h
  obtain rfl : v = v' := by rw [hA.vals] at k4; exact Option.some.inj k4
  have hsh : G.cells = axes.map (·.n) ∧ G.comps = nc := by
    have := hA.shape
    rw [k5.shape] at this
    exact ⟨List.append_inj_left' this rfl, by simpa using List.append_inj_right' this rfl⟩
  have hcs : cs = List.range nc := by cases hc; rfl
  subst hcs
  constructor
  · obtain ⟨out, q1, q2, q3⟩ := select_text h
    have hout : IsField out (axes.map fun a => a.hi - a.lo) nc fun i j => entry out (i ++ [j]) := by
      refine ⟨q2.1, by rw [q2.2.1, List.length_range], fun i hi j hj => ?_⟩
      have hin : inRange out.shape (i ++ [j]) = true := by
        rw [q2.2.1, List.length_range]; exact inRange_snoc_iff.2 ⟨hi, hj⟩
      obtain ⟨x, hx⟩ := Option.isSome_iff_exists.1 (NArr.get?_isSome q2.1 hin)
      simp [entry, hx]
    obtain ⟨a, ha, -⟩ := push_field (g := axes.map fun a => NArr.ofList a.nodesOut) (by simp) q3 hout d
    obtain ⟨-, -, -, a4, a5⟩ := push_tag ha
    refine ⟨_, out, a, by rw [selecting, q1]; rfl, ha, ?_⟩
    simp only [ofValues, a4, a5, C41_pij_fails hout (by omega) hp, bind, Except.bind]
  · obtain ⟨w, e1, e2⟩ := C41_pij_partial k5 h10 hr hl
    obtain ⟨b, hb, -⟩ := push_field k2 k3 e2 d
    obtain ⟨-, -, -, b4, b5⟩ := push_tag hb
    have hdims : b.numDims = axes.length := by
      obtain ⟨nc₂, l, u, -, -, -, rfl⟩ := GData.push_eq_ok hb
      simp [GData.numDims, GData.numCells, e2.shape, hsh.1]
    have hgg : g = axes.map fun a => NArr.ofList a.nodes := by
      rw [hA.grid] at k1; exact (Option.some.inj k1).symm
    have hask : Asks pf none zs b axes w (List.range 6) :=
      ⟨6, ⟨by rw [b4, hgg], b5, e2.wf, by rw [e2.shape, hsh.1], hdims, hA.nonempty, hA.six⟩, .all, hax, hz⟩
    obtain ⟨out₂, q1, -, -⟩ := select_text hask
    refine ⟨g, w, b, _, out₂, ?_, hb, by rw [selecting, q1]; rfl⟩
    simp only [ofValues, k1, hA.vals, e1, bind, Except.bind, pure, Except.pure]

end

namespace SelFluidEx

/-- A gas of 2 × 2 cells: density 1, 2, 3, 4, velocity (3, 0, 0), pressure 4. -/
def G : Gas ℚ :=
  ⟨[2, 2], 5, fun i => (2 * i[0]?.getD 0 + i[1]?.getD 0 : Nat) + 1, fun _ c => if c = 0 then 3 else 0, fun _ => 4, fun _ _ => 0,
    fun _ _ => 0⟩

/-- Its conserved variables. -/
def data : GData ℚ :=
  { tag := "elc".toList
    grid := some [NArr.ofList [0, 1, 2], NArr.ofList [-1, 0, 1]]
    values := some (NArr.ofFn [2, 2, 5] fun i =>
      some (fiveMoment (5 / 3) (G.rho i.dropLast) (G.u i.dropLast) (G.p i.dropLast) (i.getLast?.getD 0)))
    ctx := { cells := some [2, 2], numComps := some 5 } }

/-- The hypotheses of C158 are met: `select --z1 1` and `euler -v pressure`, in a store with the data twice, once switched
off. -/
example : let s := perform [.add { data with status := false }, .add data]
    Reachable s ∧ Requests s (some "elc".toList) ["elc".toList] ∧ (∀ t ∈ ["elc".toList], t ∈ s.dict.map Prod.fst) ∧
      visited s ["elc".toList] = [1] ∧ s.heap[1]? = some data ∧ IsEuler (5 / 3) data G ∧
      ∃ v, Asks (fun _ => none) none [none, some (dec 1)] data
        [⟨[0, 1, 2], 2, none, 0, 2⟩, ⟨[-1, 0, 1], 2, none, 1, 2⟩] v (List.range 5) := by
  intro s
  have hf : IsField (NArr.ofFn [2, 2, 5] fun i =>
      some (fiveMoment (5 / 3) (G.rho i.dropLast) (G.u i.dropLast) (G.p i.dropLast) (i.getLast?.getD 0)))
      [2, 2] 5 fun i => fiveMoment (5 / 3) (G.rho i) (G.u i) (G.p i) :=
    isField_of_ofFn (cells := [2, 2]) (m := 5) fun i hi c hc => by simp
  refine ⟨Space.reachable_perform _, .listed (ts := ["elc".toList]) (by decide) (by decide), by decide, by decide, rfl,
    ⟨⟨by decide, ?_⟩, _, rfl, by decide, by simp [NArr.ofList], _, rfl, hf⟩,
    _, 5, ⟨rfl, rfl, hf.wf, rfl, rfl, by simp, by simp⟩, .all, ?_, ?_⟩
  · intro i _
    show ((2 * i[0]?.getD 0 + i[1]?.getD 0 : Nat) : ℚ) + 1 ≠ 0
    positivity
  · simp [Increasing]
  · intro i a ha
    match i, ha with
    | 0, ha => cases ha; exact .all
    | 1, ha => cases ha; exact .numbers (.indexStr 1 (by decide))

end SelFluidEx
end Pgkyl
