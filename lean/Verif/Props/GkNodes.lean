import Verif.Spec.GkNodes
import Verif.Lemmas.CompOps
import Verif.Lemmas.SmallIndex
import Verif.Lemmas.NumOps
import Verif.Lemmas.Idx
import Verif.Props.Gk
import Verif.Props.Adios
/-! # C120: the nodes drawn by `gk_nodes` -/

namespace Pgkyl
open Spec Gk

section
variable {F : Type}

theorem Gk.squeeze_entries {v : NArr F} {sh : List Nat} {g : List Nat → F} (h : HasEntries v sh g) :
    v.squeeze.WF ∧ v.squeeze.shape = sh.filter (· ≠ 1) ∧
      ∀ i, inRange sh i = true → v.squeeze.get? (dropOnes sh i) = some (g i) := by
  obtain ⟨h1, h2, h3⟩ := h
  refine ⟨?_, by simp only [NArr.squeeze, h2], fun i hi => by rw [squeeze_get? h2 hi, h3 i hi]⟩
  simp only [NArr.WF, NArr.squeeze] at h1 ⊢
  rw [prod_filter_ones, h1]

theorem Gk.nodePart_ok {v : NArr F} {cells : List Nat} {p : List Nat → Nat → F} (h : NodesOf v cells p) {cd : Nat}
    (hcd : cd < 3) : HasEntries (nodePart v cd) (planeOf cells) fun j => p (planeNode cells j) cd := by
  obtain ⟨hf, hm, hl, hh⟩ := h
  have hmin : min cd 3 = cd ∧ min (cd + 1) 3 = cd + 1 := by omega
  obtain ⟨hwf, hsh, hget⟩ := hf
  match cells, hl, hh with
  | [a], _, _ =>
    have ha : 2 ≤ a := hm a (by simp)
    have hs : nodeSlices v.shape cd = [(0, a), (cd, cd + 1)] := by
      rw [hsh]; simp [nodeSlices, List.range_succ, hmin.1, hmin.2]
    obtain ⟨s1, s2, s3⟩ := slice_get? hwf (rs := [(0, a), (cd, cd + 1)]) (by rw [hsh]; rfl)
      (by rw [hsh]; simp; omega)
    have hent : HasEntries (v.slice [(0, a), (cd, cd + 1)]) [a, 1] fun j => p (j.take 1) cd := by
      refine ⟨s1, by rw [s2]; simp, fun j hj => ?_⟩
      · obtain ⟨x, y, rfl, hx⟩ := inRange_two hj
        replace hj := hx
        rw [s3 [x, y] (by simp [inRange, hj.1, hj.2])]
        have : y = 0 := by omega
        subst this
        simpa using hget [x] (by simp [inRange, hj.1]) cd hcd
    obtain ⟨q1, q2, q3⟩ := Gk.squeeze_entries hent
    rw [nodePart, hs]
    refine ⟨q1, by rw [q2]; simp [planeOf, show a ≠ 1 by omega], fun j hj => ?_⟩
    · obtain ⟨x, rfl, hx⟩ := inRange_one (a := a) (by simpa [planeOf] using hj)
      replace hj := hx
      have := q3 [x, 0] (by simp [inRange, hj])
      simpa [dropOnes, show a ≠ 1 by omega, planeNode] using this
  | [a, b], _, _ =>
    have ha : 2 ≤ a := hm a (by simp)
    have hb : 2 ≤ b := hm b (by simp)
    have hs : nodeSlices v.shape cd = [(0, a), (0, b), (cd, cd + 1)] := by
      rw [hsh]; simp [nodeSlices, List.range_succ, hmin.1, hmin.2]
    obtain ⟨s1, s2, s3⟩ := slice_get? hwf (rs := [(0, a), (0, b), (cd, cd + 1)]) (by rw [hsh]; rfl)
      (by rw [hsh]; simp; omega)
    have hent : HasEntries (v.slice [(0, a), (0, b), (cd, cd + 1)]) [a, b, 1] fun j => p (j.take 2) cd := by
      refine ⟨s1, by rw [s2]; simp, fun j hj => ?_⟩
      · obtain ⟨x, z, y, rfl, hx⟩ := inRange_three hj
        replace hj := hx
        rw [s3 [x, z, y] (by simp [inRange, hj.1, hj.2.1, hj.2.2])]
        have : y = 0 := by omega
        subst this
        simpa using hget [x, z] (by simp [inRange, hj.1, hj.2.1]) cd hcd
    obtain ⟨q1, q2, q3⟩ := Gk.squeeze_entries hent
    rw [nodePart, hs]
    refine ⟨q1, by rw [q2]; simp [planeOf, show a ≠ 1 by omega, show b ≠ 1 by omega], fun j hj => ?_⟩
    · obtain ⟨x, z, rfl, hx⟩ := inRange_two (a := a) (b := b) (by simpa [planeOf] using hj)
      replace hj := hx
      have := q3 [x, z, 0] (by simp [inRange, hj])
      simpa [dropOnes, show a ≠ 1 by omega, show b ≠ 1 by omega, planeNode] using this
  | [a, b, c], _, _ =>
    have ha : 2 ≤ a := hm a (by simp)
    have hb : 2 ≤ b := hm b (by simp)
    have hc : 2 ≤ c := hm c (by simp)
    have hs : nodeSlices v.shape cd = [(0, a), (0, 1), (0, c), (cd, cd + 1)] := by
      rw [hsh]; simp [nodeSlices, List.range_succ, hmin.1, hmin.2]; omega
    obtain ⟨s1, s2, s3⟩ := slice_get? hwf (rs := [(0, a), (0, 1), (0, c), (cd, cd + 1)]) (by rw [hsh]; rfl)
      (by rw [hsh]; simp; omega)
    have hent : HasEntries (v.slice [(0, a), (0, 1), (0, c), (cd, cd + 1)]) [a, 1, c, 1] fun j => p (j.take 3) cd := by
      refine ⟨s1, by rw [s2]; simp, fun j hj => ?_⟩
      · obtain ⟨x, w, z, y, rfl, hx⟩ := inRange_four hj
        replace hj := hx
        rw [s3 [x, w, z, y] (by simp [inRange, hj.1, hj.2.1, hj.2.2.1, hj.2.2.2])]
        have : y = 0 := by omega
        subst this
        have hw : w < b := by omega
        simpa using hget [x, w, z] (by simp [inRange, hj.1, hw, hj.2.2.1]) cd hcd
    obtain ⟨q1, q2, q3⟩ := Gk.squeeze_entries hent
    rw [nodePart, hs]
    refine ⟨q1, by rw [q2]; simp [planeOf, show a ≠ 1 by omega, show c ≠ 1 by omega], fun j hj => ?_⟩
    · obtain ⟨x, z, rfl, hx⟩ := inRange_two (a := a) (b := c) (by simpa [planeOf] using hj)
      replace hj := hx
      have := q3 [x, 0, z, 0] (by simp [inRange, hj])
      simpa [dropOnes, show a ≠ 1 by omega, show c ≠ 1 by omega, planeNode] using this

variable [Add F] [Mul F]

/-- C120: R and Z of the nodes.  In a geometry mapped by the user (or not stated) the three numbers of a node are Cartesian
coordinates: R is the distance from the axis and Z the third coordinate; otherwise R and Z are the first two numbers.  For
three-dimensional grids the nodes drawn are the first ones along the second direction. -/
theorem C120_rz (sqrt : F → F) {v : NArr F} {cells : List Nat} {p : List Nat → Nat → F} (h : NodesOf v cells p) (m : Bool) :
    ∃ r z, nodesToRZ sqrt v m = .ok (r, z) ∧
      HasEntries r (planeOf cells) (fun j => majorRadius sqrt m (p (planeNode cells j))) ∧
      HasEntries z (planeOf cells) (fun j => elevation m (p (planeNode cells j))) := by
  have h0 := Gk.nodePart_ok h (cd := 0) (by omega)
  have h1 := Gk.nodePart_ok h (cd := 1) (by omega)
  have h2 := Gk.nodePart_ok h (cd := 2) (by omega)
  cases m with
  | false => exact ⟨_, _, rfl, by simpa [majorRadius] using h0, by simpa [elevation] using h1⟩
  | true =>
    obtain ⟨a1, a2, a3⟩ := h0
    obtain ⟨b1, b2, b3⟩ := h1
    obtain ⟨r, hr, r1, r2, r3⟩ := NArr.zip2_ok (f := radiusOf sqrt) (a := nodePart v 0) (b := nodePart v 1) (s := planeOf cells)
      (by rw [a2, b2]; exact bcastShape_self _) a1 b1
      (fun idx hi => by rw [a2, bcastIdx_self hi]; exact hi) (fun idx hi => by rw [b2, bcastIdx_self hi]; exact hi)
    refine ⟨r, nodePart v 2, by simp [nodesToRZ, hr, bind, Except.bind, pure, Except.pure],
      ⟨r2, r1, fun j hj => ?_⟩, by simpa [elevation] using h2⟩
    rw [r3 j hj, a2, b2, bcastIdx_self hj, a3 j hj, b3 j hj]
    simp [majorRadius, radiusOf]

omit [Add F] [Mul F] in
theorem Gk.isGeo_ok {c : Ctx F} {m : Bool} (h : CartesianNodes c m) : isGeoMapc2p c = m := by
  have e : List.idxOf "GKYL_GEOMETRY_MAPC2P".toList Text.geometryNames = 3 := by decide +kernel
  rcases h with ⟨rfl, h | h⟩ | ⟨rfl, k, hk, h⟩
  · simp only [isGeoMapc2p, h]
  · simp only [isGeoMapc2p, h, e]; decide +kernel
  · simp only [isGeoMapc2p, h, e, String.toList_ofList, pyInt_dec]
    simp
    omega

omit [Add F] [Mul F] in
theorem Gk.squeeze_nodes {v : NArr F} {cells : List Nat} {p : List Nat → Nat → F} (h : NodesOf v cells p) : v.squeeze = v := by
  have : v.shape.filter (· ≠ 1) = v.shape := by
    rw [h.field.shape, List.filter_eq_self]
    intro n hn
    rcases List.mem_append.1 hn with hn | hn
    · have := h.many n hn
      simp; omega
    · simp at hn; simp [hn]
  cases v
  simpa [NArr.squeeze] using this

omit [Add F] [Mul F] in
theorem Gk.segments_ok {r z : NArr F} {k l : Nat} {R Z : List Nat → F} (hr : HasEntries r [k, l] R) (hz : HasEntries z [k, l] Z) :
    ∃ s, segments r z = .ok s ∧ s.shape = [k, l, 2] ∧ (swapSegments s).shape = [l, k, 2] ∧ ∀ i < k, ∀ j < l,
      s.get? [i, j, 0] = some (R [i, j]) ∧ s.get? [i, j, 1] = some (Z [i, j]) ∧
      (swapSegments s).get? [j, i, 0] = some (R [i, j]) ∧ (swapSegments s).get? [j, i, 1] = some (Z [i, j]) := by
  obtain ⟨-, r2, r3⟩ := hr
  obtain ⟨-, z2, z3⟩ := hz
  have hr' : ∀ i < k, ∀ j < l, r.get? [i, j] = some (R [i, j]) := fun i hi j hj => r3 _ (by simp [inRange, hi, hj])
  have hz' : ∀ i < k, ∀ j < l, z.get? [i, j] = some (Z [i, j]) := fun i hi j hj => z3 _ (by simp [inRange, hi, hj])
  have hsome : ∀ idx, inRange [k, l, 2] idx = true → (stackAt r z idx).isSome = true := by
    intro idx h
    · obtain ⟨i, j, c, rfl, hx⟩ := inRange_three h
      replace h := hx
      have : c = 0 ∨ c = 1 := by omega
      rcases this with rfl | rfl
      · simp [stackAt, hr' i h.1 j h.2.1]
      · simp [stackAt, hz' i h.1 j h.2.1]
  have hget : ∀ i < k, ∀ j < l, ∀ c < 2, (NArr.ofFn [k, l, 2] (stackAt r z)).get? [i, j, c] = stackAt r z [i, j, c] :=
    fun i hi j hj c hc => NArr.ofFn_get? hsome (by simp [inRange, hi, hj, hc])
  refine ⟨NArr.ofFn [k, l, 2] (stackAt r z), by simp [segments, r2, z2], rfl, rfl, fun i hi j hj => ?_⟩
  have g0 : (NArr.ofFn [k, l, 2] (stackAt r z)).get? [i, j, 0] = some (R [i, j]) := by
    rw [hget i hi j hj 0 (by omega)]; exact hr' i hi j hj
  have g1 : (NArr.ofFn [k, l, 2] (stackAt r z)).get? [i, j, 1] = some (Z [i, j]) := by
    rw [hget i hi j hj 1 (by omega)]; exact hz' i hi j hj
  have hswap : ∀ c < 2, (swapSegments (NArr.ofFn [k, l, 2] (stackAt r z))).get? [j, i, c] =
      (NArr.ofFn [k, l, 2] (stackAt r z)).get? [i, j, c] := by
    intro c hc
    show (NArr.ofFn [l, k, 2] (swapAt (NArr.ofFn [k, l, 2] (stackAt r z)))).get? [j, i, c] = _
    rw [NArr.ofFn_get? _ (by simp [inRange, hi, hj, hc])]
    · rfl
    · intro idx h
      · obtain ⟨x, y, w, rfl, hx⟩ := inRange_three h
        replace h := hx
        simp only [swapAt]
        rw [hget y h.2.1 x h.1 w h.2.2]
        exact hsome _ (by simp [inRange, h.1, h.2.1, h.2.2])
  exact ⟨g0, g1, by rw [hswap 0 (by omega), g0], by rw [hswap 1 (by omega), g1]⟩

/-- C120: what `gk_nodes` puts on the stack.  For the blocks named by `--multib`, in order, it reads the nodes file of the
block, `path/name-nodes.gkyl` or `path/name_b<b>-nodes.gkyl`, and adds the lines through the nodes (unless the grid is
one-dimensional) and the positions of the nodes, with the metadata of the file; with several blocks the tags end in the number of the
block. -/
theorem C120_nodes (sqrt : F → F) (read : Str → Option (NArr F × Ctx F)) {o : Files} (hp : '*' ∉ o.path) (hn : '*' ∉ o.name)
    {multib : Str} {numFiles : Nat} {bs : List Nat}
    (hb : Blocks numFiles multib (bs.map Int.ofNat) ∨ ∃ b : Nat, bs = [b] ∧ multib = dec b)
    (v : Nat → NArr F) (ctx : Nat → Ctx F) (m : Nat → Bool) (cells : Nat → List Nat) (p : Nat → List Nat → Nat → F)
    (hread : ∀ b ∈ bs, read (blockFile o.path o.name (decide (multib ≠ "-10".toList)) b "nodes.gkyl") = some (v b, ctx b))
    (hv : ∀ b ∈ bs, NodesOf (v b) (cells b) (p b)) (hm : ∀ b ∈ bs, CartesianNodes (ctx b) (m b)) :
    ∃ added, gkNodes sqrt read o multib [] numFiles = .ok added ∧
      List.Forall₂ (fun (e : Nat × Bool) s =>
          if e.2 then EdgesSet sqrt (decide (1 < bs.length)) e.1 (ctx e.1) (m e.1) (cells e.1) (p e.1) s
          else NodesSet sqrt (decide (1 < bs.length)) e.1 (ctx e.1) (m e.1) (cells e.1) (p e.1) s)
        (bs.flatMap fun b => if (cells b).length = 1 then [(b, false)] else [(b, true), (b, false)]) added := by
  have hblocks : getBlockIndices multib numFiles = .ok (bs.map Int.ofNat) := by
    rcases hb with hb | ⟨b, rfl, rfl⟩
    · exact (C46_blocks hb).1
    · have := (C46_one_block numFiles (i := (b : Int)) (by omega)).1
      rw [pyStr_ofNat] at this
      exact this
  have hlen : (bs.map Int.ofNat).length = bs.length := by simp
  simp only [gkNodes, hblocks, bind, Except.bind, hlen]
  have hfile : ∀ b : Nat, replaceStar (nodesFile o multib []) (pyStr (b : Int)) =
      blockFile o.path o.name (decide (multib ≠ "-10".toList)) b "nodes.gkyl" := by
    intro b
    rw [← blockPrefix_eq hp hn]
    simp only [nodesFile, replaceStar_append, blockPrefix]
    rw [replaceStar_noStar (s := "nodes.gkyl".toList) (by decide)]
  have htag : ∀ (base : Str) (b : Nat), nodeTag base bs.length (b : Int) =
      base ++ if decide (1 < bs.length) then "_b".toList ++ dec b else [] := by
    intro base b
    by_cases h : 1 < bs.length
    · simp only [nodeTag, h, if_true, decide_true, pyStr_ofNat, dec, List.append_assoc]
    · simp [nodeTag, h]
  generalize hN : bs.length = N at *
  clear hblocks hlen hb hN
  have step : ∀ b ∈ bs, ∃ new : List (NodeSet F), (∀ added, nodesBlock sqrt read (nodesFile o multib []) N added (b : Int) =
        .ok (added ++ new)) ∧ List.Forall₂ (fun (e : Nat × Bool) s =>
          if e.2 then EdgesSet sqrt (decide (1 < N)) e.1 (ctx e.1) (m e.1) (cells e.1) (p e.1) s
          else NodesSet sqrt (decide (1 < N)) e.1 (ctx e.1) (m e.1) (cells e.1) (p e.1) s)
        (if (cells b).length = 1 then [(b, false)] else [(b, true), (b, false)]) new := by
    intro b hbm
    obtain ⟨r, z, hrz, hr, hz⟩ := C120_rz sqrt (hv b hbm) (m b)
    have hshape : (v b).shape.length - 1 = (cells b).length := by rw [(hv b hbm).field.shape]; simp
    have hnode : NodesSet sqrt (decide (1 < N)) b (ctx b) (m b) (cells b) (p b)
        ⟨nodeTag "nodes".toList N b, r, z, ctx b⟩ := ⟨htag _ _, rfl, hr, hz⟩
    by_cases h1 : (cells b).length = 1
    · refine ⟨[⟨nodeTag "nodes".toList N b, r, z, ctx b⟩], fun added => ?_, ?_⟩
      · simp only [nodesBlock, edgeSets, Except.map, hfile, hread b hbm, Gk.squeeze_nodes (hv b hbm), Gk.isGeo_ok (hm b hbm), hrz, hshape, h1,
          bind, Except.bind, pure, Except.pure, if_true, List.append_nil]
      · rw [if_pos h1]
        exact .cons (by simpa using hnode) .nil
    · obtain ⟨k, l, hkl⟩ : ∃ k l, planeOf (cells b) = [k, l] := by
        have hlow := (hv b hbm).low
        have hhigh := (hv b hbm).high
        generalize cells b = cs at h1 hlow hhigh
        match cs, h1, hlow, hhigh with
        | [a, b], _, _, _ => exact ⟨a, b, rfl⟩
        | [a, b, c], _, _, _ => exact ⟨a, c, rfl⟩
      have hr2 := hr
      have hz2 := hz
      rw [hkl] at hr2 hz2
      obtain ⟨s, hs, s1, s2, s3⟩ := Gk.segments_ok hr2 hz2
      refine ⟨[⟨nodeTag "edges".toList N b, s, swapSegments s, ctx b⟩, ⟨nodeTag "nodes".toList N b, r, z, ctx b⟩],
        fun added => ?_, ?_⟩
      · simp only [nodesBlock, edgeSets, Except.map, hfile, hread b hbm, Gk.squeeze_nodes (hv b hbm), Gk.isGeo_ok (hm b hbm), hrz, hshape, h1, hs,
          bind, Except.bind, pure, Except.pure, if_false, List.append_assoc, List.cons_append, List.nil_append]
      · rw [if_neg h1]
        refine .cons ?_ (.cons (by simpa using hnode) .nil)
        simp only [if_true]
        exact ⟨htag _ _, rfl, k, l, hkl, s1, s2, s3⟩
  clear hread hv hm
  have key : ∀ (bs' : List Nat), (∀ b ∈ bs', b ∈ bs) → ∀ added : List (NodeSet F), ∃ new,
      (bs'.map Int.ofNat).foldlM (nodesBlock sqrt read (nodesFile o multib []) N) added = .ok (added ++ new) ∧
      List.Forall₂ (fun (e : Nat × Bool) s =>
          if e.2 then EdgesSet sqrt (decide (1 < N)) e.1 (ctx e.1) (m e.1) (cells e.1) (p e.1) s
          else NodesSet sqrt (decide (1 < N)) e.1 (ctx e.1) (m e.1) (cells e.1) (p e.1) s)
        (bs'.flatMap fun b => if (cells b).length = 1 then [(b, false)] else [(b, true), (b, false)]) new := by
    intro bs'
    induction bs' with
    | nil => intro _ added; exact ⟨[], by simp [pure, Except.pure], .nil⟩
    | cons b bs' ih =>
      intro hsub added
      obtain ⟨n1, h1, h2⟩ := step b (hsub b (by simp))
      obtain ⟨n2, h3, h4⟩ := ih (fun x hx => hsub x (by simp [hx])) (added ++ n1)
      refine ⟨n1 ++ n2, ?_, ?_⟩
      · rw [List.map_cons, List.foldlM_cons]
        show (nodesBlock sqrt read (nodesFile o multib []) N added (b : Int) >>= _) = _
        rw [h1, ← List.append_assoc]
        exact h3
      · rw [List.flatMap_cons]
        exact List.rel_append h2 h4
  obtain ⟨new, h1, h2⟩ := key bs (fun _ h => h) []
  exact ⟨new, by simpa using h1, h2⟩

omit [Mul F] [Add F] in
/-- A nodes file given with `--nodes_file` is looked for under the path, unless it starts with a slash; the star stands for the block. -/
theorem C120_file (o : Files) (multib : Str) (c : Char) (cs : Str) (b : Nat) (hp : '*' ∉ o.path) :
    replaceStar (nodesFile o multib (c :: cs)) (pyStr b) =
      (if c = '/' then [] else o.path ++ "/".toList) ++ (c :: cs).flatMap fun x => if x = '*' then dec b else [x] := by
  by_cases h : c = '/'
  · simp only [nodesFile, h, if_true, List.nil_append, replaceStar, pyStr_ofNat, dec]
  · have h1 : '*' ∉ o.path ++ "/".toList := by
      simp only [List.mem_append, not_or]
      exact ⟨hp, by decide⟩
    have e : o.path ++ '/' :: (c :: cs) = (o.path ++ "/".toList) ++ (c :: cs) := by simp
    simp only [nodesFile, h, if_false]
    rw [e, replaceStar_append, replaceStar_noStar h1]
    simp only [replaceStar, pyStr_ofNat, dec]

omit [Mul F] [Add F] in
/-- The flux is put on the stack with its axes swapped: entry `(j, i)` is the value of cell `(i, j)` of its grid. -/
theorem C120_flux_swapped [Add F] [Mul F] (half : F) (contour : Bool) (grid : List (List F)) {v : NArr F} {k l : Nat}
    {g : List Nat → Nat → F} (hv : IsField v [k, l] 1 g) (hk : k ≠ 1) (hl : l ≠ 1) :
    (psiSet half contour grid v).2.shape = [l, k] ∧
      ∀ i < k, ∀ j < l, (psiSet half contour grid v).2.get? [j, i] = some (g [i, j] 0) := by
  have hent : HasEntries v [k, l, 1] fun i => g (i.take 2) 0 := by
    refine ⟨hv.wf, hv.shape, fun i hi => ?_⟩
    · obtain ⟨x, y, w, rfl, hx⟩ := inRange_three hi
      replace hi := hx
      have : w = 0 := by omega
      subst this
      simpa using hv.get [x, y] (by simp [inRange, hi.1, hi.2.1]) 0 (by omega)
  obtain ⟨q1, q2, q3⟩ := Gk.squeeze_entries hent
  have q2' : v.squeeze.shape = [k, l] := by rw [q2]; simp [hk, hl]
  have q4 : ∀ i < k, ∀ j < l, v.squeeze.get? [i, j] = some (g [i, j] 0) := by
    intro i hi j hj
    have := q3 [i, j, 0] (by simp [inRange, hi, hj])
    simpa [dropOnes, hk, hl] using this
  refine ⟨by simp [psiSet, NArr.transpose, q2', NArr.ofFn], fun i hi j hj => ?_⟩
  simp only [psiSet, NArr.transpose, q2']
  rw [NArr.ofFn_get? _ (by simp [inRange, hi, hj])]
  · simpa using q4 i hi j hj
  · intro idx h
    · obtain ⟨x, y, rfl, hx⟩ := inRange_two h
      replace h := hx
      simp [q4 y h.2 x h.1]

/-- The grid of the flux: its nodes, or with `--contour` the midpoints of the cells. -/
theorem C120_flux_grid (half : F) (grid : List (List F)) (v : NArr F) :
    (psiSet half false grid v).1 = grid ∧
    (psiSet half true grid v).1.length = grid.length ∧
    ∀ (k : Nat) (g : List F), grid[k]? = some g → ∃ c, (psiSet half true grid v).1[k]? = some c ∧ c.length = g.length - 1 ∧
      ∀ (i : Nat) (x y : F), g[i]? = some x → g[i + 1]? = some y → c[i]? = some (half * (x + y)) := by
  refine ⟨rfl, by simp [psiSet], fun k g hg => ⟨centres half g, by simp [psiSet, hg], ?_, fun i x y hx hy => ?_⟩⟩
  · simp [centres]
  · have ht : g.tail[i]? = some y := by rw [List.getElem?_tail]; exact hy
    simp only [centres, List.getElem?_map, (List.getElem?_zip_eq_some (z := (x, y))).2 ⟨hx, ht⟩, Option.map_some]

end

section Ex

example : (psiSet (1 / 2 : ℚ) true [[0, 1, 2, 3], [0, 4, 2]] ⟨[3, 2, 1], [1, 2, 3, 4, 5, 6]⟩).1 = [[1/2, 3/2, 5/2], [2, 3]] := by
  decide +kernel

/-- The flux dataset does not fit its grid: three by two cells, but values of shape two by three. -/
theorem C120_flux_fails : (psiSet (1 / 2 : ℚ) false [[0, 1, 2, 3], [0, 1, 2]] ⟨[3, 2, 1], [1, 2, 3, 4, 5, 6]⟩).2.shape = [2, 3] := by
  decide +kernel

def exNodes : NArr ℕ := ⟨[2, 2, 3], [3, 4, 5, 6, 8, 7, 1, 0, 2, 0, 9, 1]⟩

/-! Non-vacuity. -/
example : NodesOf exNodes [2, 2] fun i c => (exNodes.get? (i ++ [c])).getD 0 := by
  refine ⟨⟨rfl, rfl, fun i hi c hc => ?_⟩, by decide, by decide, by decide⟩
  have := NArr.get?_isSome (a := exNodes) (idx := i ++ [c]) rfl (by
    show inRange ([2, 2] ++ [3]) _ = true
    rw [inRange_iff_forall₂] at hi ⊢
    exact List.rel_append hi (.cons (by simpa using hc) .nil))
  obtain ⟨x, hx⟩ := Option.isSome_iff_exists.1 this
  simp [hx]
example : ((gkNodes (fun x => x) (fun f => if f = "./a-nodes.gkyl".toList then some (exNodes, {}) else none)
    ⟨".".toList, "a".toList, [], [], [[], [], [], [], [], []], [], [], [], []⟩ "-10".toList [] 0).toOption.map fun l =>
      l.map fun s => (s.tag, s.first.data)) =
    some [("edges".toList, [25, 5, 100, 7, 1, 2, 81, 1]), ("nodes".toList, [25, 100, 1, 81])] := by decide +kernel
example : ∃ (bs : List Nat), Blocks 2 "-1".toList (bs.map Int.ofNat) ∧ bs = [0, 1] := ⟨[0, 1], Blocks.all, rfl⟩
end Ex

end Pgkyl
