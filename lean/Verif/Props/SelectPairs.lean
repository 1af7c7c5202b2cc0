import Verif.Props.SelectFluid
import Verif.Props.PairCommands
/-!
# C162: diagnostics of two datasets, computed from parts of them

`velocity`, `parrotate`, `get_agyro` and `rel_change` give, for the same part of both datasets, that part of what they give
for the whole datasets.
-/

namespace Pgkyl
open Spec Cmd

section
variable {F : Type} [LinearOrder F]

/-- The dataset `r` is the dataset `d` after `select` with the texts `zs`, working in place. -/
def Selected (pf : List Char → Option F) (zs : List (Option (List Char))) (d r : GData F) : Prop :=
  ∃ g w, selecting pf zs d = .ok (g, w) ∧ d.push g w = .ok r

/-- The datasets hold `n` and `n'` numbers per cell, on one grid; the texts `zs` ask for a part of its cells. -/
def AskBoth (pf : List Char → Option F) (zs : List (Option (List Char))) (x y : GData F) (n n' : Nat) : Prop :=
  ∃ axes v w q q', Asks pf none zs x axes v (List.range n) ∧ Asks pf none zs y axes w (List.range n') ∧
    IsField v (axes.map (·.n)) n q ∧ IsField w (axes.map (·.n)) n' q'

/-- Computing with `f` from the parts of `x` and `y` and storing the result in any dataset gives the same grid and values as
computing from `x` and `y`, storing the result, and selecting the part of it. -/
def PartsFirst (pf : List Char → Option F) (zs : List (Option (List Char)))
    (f : GData F → GData F → Except Err (List (NArr F) × NArr F)) (x y : GData F) : Prop :=
  ∃ a b g w g₀ w₀, Selected pf zs x a ∧ Selected pf zs y b ∧ f a b = .ok (g, w) ∧ f x y = .ok (g₀, w₀) ∧
    ∀ e : GData F, ∃ r s, e.push g₀ w₀ = .ok r ∧ selecting pf zs r = .ok (g, w) ∧ e.push g w = .ok s ∧ Selected pf zs r s

/-- The part of a dataset. -/
theorem part_of {pf : List Char → Option F} {zs : List (Option (List Char))} {d : GData F} {axes : List (SelAxis F)}
    {v : NArr F} {n : Nat} {q : List Nat → Nat → F} (h : Asks pf none zs d axes v (List.range n))
    (hq : IsField v (axes.map (·.n)) n q) :
    ∃ a out, Selected pf zs d a ∧ a.grid = some (axes.map fun a => NArr.ofList a.nodesOut) ∧ a.values = some out ∧
      selecting pf zs d = .ok (axes.map fun a => NArr.ofList a.nodesOut, out) ∧
      (∀ a ∈ axes.map fun a => NArr.ofList a.nodesOut, a.data ≠ []) ∧
      IsField out (axes.map fun a => a.hi - a.lo) n fun i => q (List.zipWith (· + ·) i (axes.map (·.lo))) := by
  obtain ⟨nc, hA, hc, hax, hz⟩ := id h
  obtain ⟨out, k1, k2, k3⟩ := select_text h
  have hin : ∀ i, inRange (axes.map fun a => a.hi - a.lo) i = true →
      inRange (axes.map (·.n)) (List.zipWith (· + ·) i (axes.map (·.lo))) = true := fun i hi =>
    sel_inRange (fun a ha => by
      obtain ⟨k, hk⟩ := List.mem_iff_getElem?.1 ha
      exact ⟨(hax a ha).2.2, (by
        obtain ⟨z', hd, -⟩ := text_arg pf (hax a ha).1 (hz k a hk)
        exact denotes_le hd)⟩) hi
  have hout : IsField out (axes.map fun a => a.hi - a.lo) n (fun i => q (List.zipWith (· + ·) i (axes.map (·.lo)))) := by
    refine ⟨k2.1, by rw [k2.2.1, List.length_range], fun i hi c hc => ?_⟩
    rw [k2.2.2 i c c hi (List.getElem?_range hc)]
    exact hq.get _ (hin i hi) c hc
  obtain ⟨a, ha, -⟩ := push_field (g := axes.map fun a => NArr.ofList a.nodesOut) (by simp) k3 hout d
  obtain ⟨-, -, -, a4, a5⟩ := push_tag ha
  have hs : selecting pf zs d = .ok (axes.map fun a => NArr.ofList a.nodesOut, out) := by rw [selecting, k1]; rfl
  exact ⟨a, out, ⟨_, _, hs, ha⟩, a4, a5, hs, k3, hout⟩

/-- A function of two datasets that computes cell by cell. -/
theorem pair_swap {pf : List Char → Option F} {zs : List (Option (List Char))} {x y : GData F} {n n' m : Nat}
    {f : NArr F → NArr F → Except Err (NArr F)} {K : (Nat → F) → (Nat → F) → Nat → F}
    {F₂ : GData F → GData F → Except Err (List (NArr F) × NArr F)}
    (hF : ∀ (a b : GData F) g v w o, a.grid = some g → b.grid = some g → a.values = some v → b.values = some w →
      f v w = .ok o → F₂ a b = .ok (g, o))
    (hf : ∀ v w cells q q', IsField v cells n q → IsField w cells n' q' → Gives (f v w) cells m fun i => K (q i) (q' i))
    (h : AskBoth pf zs x y n n') : PartsFirst pf zs F₂ x y := by
  obtain ⟨axes, v, w, q, q', hx, hy, hv, hw⟩ := h
  obtain ⟨a, v₁, a1, a2, a3, a4, a5, a6⟩ := part_of hx hv
  obtain ⟨b, w₁, b1, b2, b3, b4, b5, b6⟩ := part_of hy hw
  obtain ⟨o, o1, o2⟩ := hf _ _ _ _ _ a6 b6
  obtain ⟨p, p1, p2⟩ := hf _ _ _ _ _ hv hw
  obtain ⟨nc, hA, -, hax, hz⟩ := id hx
  obtain ⟨nc', hB, -, -, -⟩ := id hy
  refine ⟨a, b, _, o, _, p, a1, b1, hF _ _ _ _ _ _ a2 b2 a3 b3 o1, hF _ _ _ _ _ _ hA.grid hB.grid hA.vals hB.vals p1, fun e => ?_⟩
  have hgr : ∀ x ∈ axes.map fun a => NArr.ofList a.nodes, x.data ≠ [] := by
    intro x hx
    obtain ⟨y, hy, rfl⟩ := List.mem_map.1 hx
    obtain ⟨t1, t2, t3⟩ := hax y hy
    obtain ⟨k, hk⟩ := List.mem_iff_getElem?.1 hy
    obtain ⟨z', hd, -⟩ := text_arg pf t1 (hz k y hk)
    have := denotes_le hd
    intro e
    have : y.nodes.length = 0 := by
      have := congrArg List.length e
      simpa [NArr.ofList] using this
    omega
  obtain ⟨r, hr, -⟩ := push_field (g := axes.map fun a => NArr.ofList a.nodes) (by simp) hgr p2 e
  obtain ⟨-, -, -, r4, r5⟩ := push_tag hr
  have hdims : r.numDims = axes.length := by
    obtain ⟨nc₂, l, u, -, -, -, rfl⟩ := GData.push_eq_ok hr
    simp [GData.numDims, GData.numCells, p2.shape]
  have hask : Asks pf none zs r axes p (List.range m) :=
    ⟨m, ⟨r4, r5, p2.wf, p2.shape, hdims, hA.nonempty, hA.six⟩, .all, hax, hz⟩
  obtain ⟨s, out, s1, -, -, s4, s5, s6⟩ := part_of hask p2
  obtain rfl : out = o := field_ext s6 o2 fun i _ c _ => rfl
  obtain ⟨t, t1, -⟩ := push_field (g := axes.map fun a => NArr.ofList a.nodesOut) (by simp) s5 o2 e
  exact ⟨r, t, hr, s4, t1, _, _, s4, GData.push_push hr t1⟩

theorem ofPair_both {f : NArr F → NArr F → Except Err (NArr F)} (a b : GData F) (g : List (NArr F)) (v w o : NArr F)
    (h1 : a.grid = some g) (_ : b.grid = some g) (h3 : a.values = some v) (h4 : b.values = some w) (h5 : f v w = .ok o) :
    ofPair f a b = .ok (g, o) := by
  simp only [ofPair, h1, h3, h4, h5, bind, Except.bind, pure, Except.pure]

theorem ofPairSnd_both {f : NArr F → NArr F → Except Err (NArr F)} (a b : GData F) (g : List (NArr F)) (v w o : NArr F)
    (_ : a.grid = some g) (h2 : b.grid = some g) (h3 : a.values = some v) (h4 : b.values = some w) (h5 : f v w = .ok o) :
    ofPairSnd f a b = .ok (g, o) := by
  simp only [ofPairSnd, h2, h3, h4, h5, bind, Except.bind, pure, Except.pure]

end

section
variable {F : Type} [_root_.Field F] [CharZero F] [LinearOrder F]
variable {pf : List Char → Option F} {zs : List (Option (List Char))} {x y : GData F}

omit [CharZero F] in
/-- C162: the velocity from parts of a density and a momentum (any number of components). -/
theorem C162_velocity {m : Nat} (h : AskBoth pf zs x y 1 m) :
    PartsFirst pf zs (ofPair fun m0 m1 => Tools.div m1 m0) x y :=
  pair_swap (K := fun rho p c => p c / rho 0) ofPair_both (fun v w cells q q' hv hw => gives_zip_one (· / ·) hw hv) h

omit [CharZero F] in
/-- C162: the projection of a vector on three components, from number `k` on, of another dataset. -/
theorem C162_parrotate {n k : Nat} (hk : k + 3 ≤ n) (h : AskBoth pf zs x y 3 n) :
    PartsFirst pf zs (ofPair fun u b => Tools.parrotate u b (dec k ++ ':' :: dec (k + 3))) x y :=
  pair_swap (K := fun u b c => (u 0 * b k + u 1 * b (k + 1) + u 2 * b (k + 2)) /
      (b k * b k + b (k + 1) * b (k + 1) + b (k + 2) * b (k + 2)) * b (k + c)) ofPair_both
    (fun v w cells q q' hv hw => Tools.parrotate_gives hv hw hk) h

/-- C162: both measures of agyrotropy of a pressure tensor with respect to a field. -/
theorem C162_agyro {sqrt : F → F} {measure : String} (hm : measure ∈ ["swisdak", "frobenius"]) {n : Nat} (hn : 3 ≤ n)
    (h : AskBoth pf zs x y 6 n) :
    PartsFirst pf zs (ofPairSnd fun p b => Tools.getAgyro sqrt p b measure.toList) x y :=
  pair_swap (K := fun P b _ => agyrotropy sqrt measure P b) ofPairSnd_both
    (fun v w cells q q' hv hw => agyro_gives hm hv hn hw) h

omit [CharZero F] in
/-- C162: the change of the dataset `x` relative to the dataset `y`. -/
theorem C162_relchange {m : Nat} {comp : Option Nat} (hc : ∀ j, comp = some j → j < m) (h : AskBoth pf zs x y m m) :
    PartsFirst pf zs (ofPair fun v v0 => Tools.relChange v0 v comp) x y :=
  pair_swap (K := fun b a c => (b c - a c) / a (comp.getD c)) ofPair_both
    (fun v w cells q q' hv hw => Tools.relChange_gives hw hv fun k hk => by
      cases comp with
      | none => exact hk
      | some j => exact hc j rfl) h

end

namespace SelPairsEx

/-- `m` numbers in each of 2 × 2 cells. -/
def data (m : Nat) (f : List Nat → Nat → ℚ) : GData ℚ :=
  { tag := "d".toList
    grid := some [NArr.ofList [0, 1, 2], NArr.ofList [-1, 0, 1]]
    values := some (NArr.ofFn ([2, 2] ++ [m]) fun i => some (f i.dropLast (i.getLast?.getD 0)))
    ctx := { cells := some [2, 2], numComps := some m } }

/-- The hypotheses of C162 are met: `select --z1 1` for any two datasets of 2 × 2 cells. -/
theorem both (n m : Nat) (f g : List Nat → Nat → ℚ) :
    AskBoth (fun _ => none) [none, some (dec 1)] (data n f) (data m g) n m := by
  have hf : ∀ n f, IsField (NArr.ofFn ([2, 2] ++ [n]) fun i => some ((f i.dropLast (i.getLast?.getD 0) : ℚ))) [2, 2] n f :=
    fun n f => isField_of_ofFn (cells := [2, 2]) (m := n) fun i hi c hc => by simp
  have key : ∀ n f, Asks (fun _ => none) none [none, some (dec 1)] (data n f)
      [⟨[0, 1, 2], 2, none, 0, 2⟩, ⟨[-1, 0, 1], 2, none, 1, 2⟩] (NArr.ofFn ([2, 2] ++ [n]) fun i => some (f i.dropLast (i.getLast?.getD 0)))
      (List.range n) := fun n f => by
    refine ⟨n, ⟨rfl, rfl, (hf n f).wf, rfl, rfl, by simp, by simp⟩, .all, ?_, ?_⟩
    · simp [Increasing]
    · intro i a ha
      match i, ha with
      | 0, ha => cases ha; exact .all
      | 1, ha => cases ha; exact .numbers (.indexStr 1 (by decide))
  exact ⟨_, _, _, _, _, key n f, key m g, hf n f, hf m g⟩

example := C162_velocity (both 1 3 (fun i _ => ((i[0]?.getD 0 : Nat) : ℚ) + 1) fun i c => ((i[1]?.getD 0 : Nat) : ℚ) + c)
example := C162_parrotate (k := 3) (by decide) (both 3 6 (fun i c => ((i[0]?.getD 0 : Nat) : ℚ) + c) fun i c => ((i[1]?.getD 0 : Nat) : ℚ) + c)
example := C162_agyro (sqrt := id) (measure := "swisdak") (by simp) (by decide)
  (both 6 3 (fun i c => ((i[0]?.getD 0 : Nat) : ℚ) + c) fun i c => ((i[1]?.getD 0 : Nat) : ℚ) + c)
example := C162_relchange (comp := some 1) (by simp) (both 2 2 (fun i c => ((i[0]?.getD 0 : Nat) : ℚ) + c) fun i c => ((i[1]?.getD 0 : Nat) : ℚ) + c + 1)

end SelPairsEx
end Pgkyl
