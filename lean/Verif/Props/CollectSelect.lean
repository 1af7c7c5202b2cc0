import Verif.Lemmas.CollectSelect
import Verif.Props.EvLinear
import Verif.Props.Collect
import Verif.Props.Adjacent
import Verif.Lemmas.PairCommands
/-!
# C138: selecting from collected frames

Numbers are the elements of a linearly ordered field (exact arithmetic).  Time stamps are not zero (see C32) and distinct.
-/

namespace Pgkyl
open Spec Cmd Collect

section
variable {F : Type} [_root_.Field F] [LinearOrder F]

/-- The axis of the frames in a collected dataset, of which the frames `lo, …, hi - 1` are selected. -/
def frameAxis (order : List (F × NArr F)) (lo hi : Nat) : SelAxis F := ⟨order.map Prod.fst, order.length, none, lo, hi⟩

/-- What collecting makes of frames on common axes. -/
theorem collect_frames {timeOf : GData F → Option F} {frameOf : GData F → Option Int} {argsort : List F → List Nat}
    (ha : IsArgsort argsort) (fmod : F → F → F) {o : Opts F} {s : Space F} (hi : s.Inv) {tag : Tag} (h0 : tag ≠ [])
    (hcm : ',' ∉ tag) (hu : o.use = some tag) (hT : o.tag = none) (hsd : o.sumdata = false) (hp : o.period = none)
    (hc : o.chunk = none) {ids : List Nat} (hl : s.lookup tag = some ids) {G : List (List F)}
    {sh : List Nat} (hsh : sh.length = G.length + 1) {C : List (F × NArr F)} (hC : C ≠ [])
    (hn : (C.map Prod.fst).Nodup)
    (hL : List.Forall₂ (fun e c => Frame timeOf sh e.2 (c.1, c.2, G.map NArr.ofList) ∧ c.1 ≠ 0) (activeOf s ids) C) :
    ∃ (sC : Space F) (order : List (F × NArr F)) (out : GData F) (V : NArr F), collectCmd timeOf frameOf argsort fmod o s = .ok sC ∧ sC.Inv ∧ visited sC [tag] = [s.heap.length] ∧
      tag ∈ sC.dict.map Prod.fst ∧ sC.heap[s.heap.length]? = some out ∧ order.Perm C ∧
      (order.map Prod.fst).Pairwise (· < ·) ∧ out.grid = some (NArr.ofList (order.map Prod.fst) :: G.map NArr.ofList) ∧
      out.values = some V ∧ V.WF ∧ out.numDims = G.length + 1 ∧ V.shape = C.length :: sh ∧
      ∀ (k : Nat) (e : F × NArr F), order[k]? = some e → ∀ r, inRange sh r = true → V.get? (k :: r) = e.2.get? r := by
  have hL' : List.Forall₂ (fun e c => Frame timeOf sh e.2 c ∧ c.1 ≠ 0) (activeOf s ids)
      (C.map fun c => (c.1, c.2, G.map NArr.ofList)) := by
    rw [List.forall₂_map_right_iff]; exact hL
  have hC' : (C.map fun c => (c.1, c.2, G.map (NArr.ofList (α := F)))) ≠ [] := by simpa using hC
  have hmem := frames_mem hL'
  have hcol := collectTag_ok (frameOf := frameOf) ha fmod hi h0 hcm hl (by simp [hc]) hC'
    (frames_contribute (frameOf := frameOf) (o := o) hsd hL') (sh := sh)
    (fun c hcc => by obtain ⟨⟨e, _, hf⟩, _⟩ := hmem c hcc; exact ⟨hf.wf, hf.shape⟩) (by simp [hsd])
    (fun _ c hcc => by obtain ⟨⟨e, _, hf⟩, _⟩ := hmem c hcc; exact ⟨hf.dims, hf.axes⟩) (tagCnt := 0) (T := tag)
    (by simp [outTagOf, hT])
  obtain ⟨sC, heap, outs, h1, h2, h3, h4, h5, h6, h7⟩ := hcol
  rw [← collectCmd_one h0 hcm hu] at h1
  rw [hc, show size none = none from rfl, go_none] at h5
  match outs, h5 with
  | [out], .cons h .nil =>
    obtain ⟨g1, g2, -, order, V, g3, g4, g5, g6, g7, g8, g9, g10⟩ := h
    have hm : (List.map (fun c => (written fmod o c.1, c.2.1)) ([] ++ List.map (fun c => (c.1, c.2, G.map NArr.ofList)) C)) =
        C := by
      rw [List.nil_append, List.map_map]
      conv_rhs => rw [← List.map_id C]
      refine List.map_congr_left fun c _ => ?_
      simp [written, hp]
    rw [hm] at g3 g9
    obtain ⟨c0, hc0⟩ := List.exists_mem_of_ne_nil C hC
    have hshape : ∀ c ∈ C, c.2.shape = sh := by
      intro c hc
      obtain ⟨⟨e, -, hf⟩, -⟩ := hmem _ (List.mem_map.2 ⟨c, hc, rfl⟩)
      exact hf.shape
    have hVs : V.shape = C.length :: sh := by rw [g9 c0 hc0, hshape c0 hc0]
    have hlk : (sC.lookup tag).getD [] = ids ++ [s.heap.length] := by
      rw [h7, hl]; simp
    have hout : sC.heap[s.heap.length]? = some out := by
      rw [h2, List.getElem?_append_right h3.le, h3, Nat.sub_self]; rfl
    have hgrid : (mk ([] ++ List.map (fun c => (c.1, c.2, G.map (NArr.ofList (α := F)))) C)).grid = G.map NArr.ofList := by
      cases C with
      | nil => exact absurd rfl hC
      | cons c cs => rfl
    refine ⟨sC, order, out, V, h1, collect_inv hi h0 hcm hu hl h1, ?_, ?_, hout, g3, ?_, ?_, g6, g7, ?_, hVs, ?_⟩
    · simp only [visited, List.flatMap_cons, List.flatMap_nil, List.append_nil, hlk, List.filter_append]
      have e1 : ids.filter sC.active = [] := by
        rw [List.filter_eq_nil_iff]
        intro j hj
        have hjl := hi.lt hl hj
        have : sC.heap[j]? = (s.heap[j]?).map GData.deactivate := by
          rw [h2, List.getElem?_append_left (by omega), h4, if_pos hj]
        rw [List.getElem?_eq_getElem hjl] at this
        simp [Space.active, this, GData.deactivate]
      rw [e1]
      simp [Space.active, hout, g2]
    · cases hk : sC.lookup tag with
      | none => rw [hk] at hlk; simp at hlk
      | some l => exact List.mem_map.2 ⟨_, Space.mem_of_lookup hk, rfl⟩
    · exact sorted_lt ((g3.map Prod.fst).nodup_iff.2 hn) g4
    · rw [g5, hgrid, hsd]; rfl
    · rw [GData.numDims, g8, hVs]
      simp [hsh]
    · intro k e hk r hr
      exact g10 k e hk r (by rw [hshape e (g3.mem_iff.1 (List.mem_of_getElem? hk))]; exact hr)

omit [_root_.Field F] in
theorem asks_frame {timeOf : GData F → Option F} {pf : List Char → Option F} {comp : Option (List Char)}
    {zs : List (Option (List Char))} {d : GData F} {axes : List (SelAxis F)} {v : NArr F} {cs : List Nat} {t : F}
    (ht : timeOf d = some t) (h : Asks pf comp zs d axes v cs) :
    Frame timeOf v.shape d (t, v, (axes.map (·.nodes)).map NArr.ofList) := by
  obtain ⟨nc, hA, -, hax, -⟩ := id h
  refine ⟨ht, hA.vals, hA.wf, rfl, by rw [hA.grid, List.map_map]; rfl, by simp [hA.shape], by simpa using hA.nonempty, ?_⟩
  intro g hg
  obtain ⟨l, hl, rfl⟩ := List.mem_map.1 hg
  obtain ⟨a, haa, rfl⟩ := List.mem_map.1 hl
  obtain ⟨-, h2, h3⟩ := hax a haa
  obtain ⟨k, hk⟩ := List.mem_iff_getElem?.1 haa
  have := asks_le h hk
  show a.nodes ≠ []
  intro e
  rw [e] at h2
  simp only [List.length_nil] at h2
  omega

omit [_root_.Field F] in
/-- Selecting from a collected dataset. -/
theorem select_collected {pf : List Char → Option F} {comp : Option (List Char)} {zs : List (Option (List Char))}
    {z0 : Option (List Char)} {axes : List (SelAxis F)} {nc : Nat} {cs : List Nat} (h5 : axes.length ≤ 5)
    (hcomp : CompDenotes nc (comp.map (IdxArg.str (F := F))) cs)
    (hax : ∀ a ∈ axes, Increasing a.nodes ∧ (a.nodes.length = a.n + 1 ∨ a.nodes.length = a.n) ∧ a.lo < a.hi)
    (hz : ∀ (i : Nat) (a : SelAxis F), axes[i]? = some a → TextDenotes pf a.nodes a.n (zs[i]?.getD none) a.lo a.hi)
    {sC : Space F} (hi : sC.Inv) {tag : Tag} (h0 : tag ≠ []) (hcm : ',' ∉ tag) {n : Nat} (hvis : visited sC [tag] = [n])
    (hkey : tag ∈ sC.dict.map Prod.fst) {out : GData F} (hout : sC.heap[n]? = some out) {order : List (F × NArr F)}
    (hord : (order.map Prod.fst).Pairwise (· < ·))
    (hgrid : out.grid = some (NArr.ofList (order.map Prod.fst) :: (axes.map (·.nodes)).map NArr.ofList)) {V : NArr F}
    (hV : out.values = some V) (hw : V.WF) (hdims : out.numDims = (axes.map (·.nodes)).length + 1)
    (hsh : V.shape = order.length :: (axes.map (·.n) ++ [nc])) {lo hi' : Nat} (hlt : lo < hi')
    (hz0 : TextDenotes pf (order.map Prod.fst) order.length z0 lo hi') (label : List Char) :
    ∃ sCS r, selectCmd pf comp (z0 :: zs) (some tag) none label sC = .ok sCS ∧ sCS.heap[n]? = some r ∧
      SelectionOf (frameAxis order lo hi' :: axes) V cs out r := by
  have hasks : Asks pf comp (z0 :: zs) out (frameAxis order lo hi' :: axes) V cs := by
    refine ⟨nc, ⟨?_, hV, hw, hsh, by simpa using hdims, by simp, by simp; omega⟩, hcomp, ?_, ?_⟩
    · rw [hgrid, List.map_cons, List.map_map]; rfl
    · intro a ha
      rcases List.mem_cons.1 ha with rfl | ha
      · exact ⟨hord, Or.inr (by simp [frameAxis]), hlt⟩
      · exact hax a ha
    · intro i a hia
      cases i with
      | zero =>
        obtain rfl := by simpa using hia
        exact hz0
      | succ i => exact hz i a (by simpa using hia)
  have ht := Space.tagsOf_one sC hcm h0
  obtain ⟨sCS, h1, h2⟩ := pushCmd_replaces' (f := fun d => do
      let (g, v, _) ← select pf d (comp.map .str) ((z0 :: zs).map fun z => z.map .str) false
      return (g, v)) hi (use := some tag) (by rw [ht]; simpa using hkey) (by rw [ht]; simp) label
    (R := fun d r => ∀ (axes : List (SelAxis F)) (values : NArr F) (cs : List Nat),
        Asks pf comp (z0 :: zs) d axes values cs → SelectionOf axes values cs d r) (by
    intro id hid d hd
    rw [ht, hvis, List.mem_singleton] at hid
    subst hid
    rw [hout] at hd
    obtain rfl := Option.some.inj hd
    exact select_stored hasks)
  rw [ht, hvis] at h2
  obtain ⟨d, r, g1, g2, -, -, g3⟩ := h2.results n (by simp)
  rw [hout] at g1
  obtain rfl := Option.some.inj g1
  exact ⟨sCS, r, h1, g2, g3 _ _ _ hasks⟩

/-- C138: selecting cells and components of every frame and collecting the results gives the same dataset as collecting the
frames and selecting afterwards, where the axes of the frames come after that of the times. -/
theorem C138_select {timeOf : GData F → Option F} {frameOf : GData F → Option Int} {argsort : List F → List Nat}
    (ha : IsArgsort argsort) (fmod : F → F → F) {o : Opts F} {s : Space F} (hs : Reachable s) {tag : Tag} (h0 : tag ≠ [])
    (hcm : ',' ∉ tag) (hu : o.use = some tag) (hT : o.tag = none) (hsd : o.sumdata = false) (hp : o.period = none)
    (hc : o.chunk = none) (htime : ∀ d r : GData F, r.ctx.other = d.ctx.other → timeOf r = timeOf d)
    {ids : List Nat} (hl : s.lookup tag = some ids) {pf : List Char → Option F} {comp : Option (List Char)}
    {zs : List (Option (List Char))} {axes : List (SelAxis F)} {nc : Nat} {cs : List Nat} (h5 : axes.length ≤ 5)
    {C : List (F × NArr F)} (hC : C ≠ []) (hn : (C.map Prod.fst).Nodup)
    (hL : List.Forall₂ (fun e c => timeOf e.2 = some c.1 ∧ c.1 ≠ 0 ∧ Asks pf comp zs e.2 axes c.2 cs ∧
      c.2.shape = axes.map (·.n) ++ [nc]) (activeOf s ids) C) (label : List Char) :
    ∃ sS sSC sC sCS, selectCmd pf comp zs (some tag) none label s = .ok sS ∧
      collectCmd timeOf frameOf argsort fmod o sS = .ok sSC ∧ collectCmd timeOf frameOf argsort fmod o s = .ok sC ∧
      selectCmd pf comp (none :: zs) (some tag) none label sC = .ok sCS ∧ SameData s.heap.length 1 sSC sCS := by
  have hi := Space.reachable_inv hs
  have ht := Space.tagsOf_one s hcm h0
  have hkey : tag ∈ s.dict.map Prod.fst := List.mem_map.2 ⟨_, Space.mem_of_lookup hl, rfl⟩
  have hvis : ∀ id, id ∈ visited s [tag] ↔ id ∈ ids ∧ s.active id = true := by
    intro id
    simp [visited, hl]
  -- the active datasets ask for the part
  have hactive : ∀ id ∈ visited s [tag], ∀ d, s.heap[id]? = some d → ∃ c : F × NArr F, Asks pf comp zs d axes c.2 cs := by
    intro id hid d hd
    obtain ⟨h1, h2⟩ := (hvis id).1 hid
    obtain ⟨k, hk⟩ := List.mem_iff_getElem?.1 h1
    have hst : d.status = true := by simpa [Space.active, hd] using h2
    have hm : (k, d) ∈ activeOf s ids := by
      simp only [activeOf, List.mem_filterMap]
      exact ⟨(id, k), List.mem_zipIdx_iff_getElem?.2 hk, by simp [hd, hst]⟩
    obtain ⟨j, hj⟩ := List.mem_iff_getElem?.1 hm
    have hjl := (List.getElem?_eq_some_iff.1 hj).1
    have := hL.get hjl (by rw [← hL.length_eq]; exact hjl)
    have he : (activeOf s ids)[j] = (k, d) := (List.getElem?_eq_some_iff.1 hj).2
    have h3 := this.2.2.1
    simp only [List.get_eq_getElem, he] at h3
    exact ⟨C[j]'(by rw [← hL.length_eq]; exact hjl), h3⟩
  obtain ⟨sS, a1, a2⟩ := pushCmd_replaces' (f := fun d => do
      let (g, v, _) ← select pf d (comp.map .str) (zs.map fun z => z.map .str) false
      return (g, v)) hi (use := some tag) (by rw [ht]; simpa using hkey) (by rw [ht]; simp) label
    (R := fun d r => ∀ (axes : List (SelAxis F)) (values : NArr F) (cs : List Nat),
        Asks pf comp zs d axes values cs → SelectionOf axes values cs d r) (by
    intro id hid d hd
    rw [ht] at hid
    obtain ⟨c, hc⟩ := hactive id hid d hd
    exact select_stored hc)
  rw [ht] at a2
  have hSinv : sS.Inv := hi.congr a2.lists a2.length
  have hSl : sS.lookup tag = some ids := by rw [← hl]; simp only [Space.lookup, a2.lists]
  have hF := activeOf_replaced a2 ids 0 (fun id h1 h2 => (hvis id).2 ⟨h1, h2⟩) (fun id h => ((hvis id).1 h).2)
  -- the frames after the selection
  obtain ⟨C', hC1, hC2⟩ : ∃ C' : List (F × NArr F),
      List.Forall₂ (fun e c => Frame timeOf (axes.map (fun a => a.hi - a.lo) ++ [cs.length]) e.2
        (c.1, c.2, (axes.map (·.nodesOut)).map NArr.ofList) ∧ c.1 ≠ 0) (activeOf sS ids) C' ∧
      List.Forall₂ (fun c c' : F × NArr F => c'.1 = c.1 ∧ IsPart c.2 c'.2 axes cs) C C' := by
    refine forall₂_choose (fun e e' c hP hQ => ?_) hL hF
    obtain ⟨h1, h2, h3, h4⟩ := hP
    obtain ⟨g1, g2, w, g3, g4⟩ := hQ.2 _ _ _ h3
    refine ⟨(c.1, w), ⟨⟨?_, g3, g4.1, g4.2.1, ?_, by simp, ?_, ?_⟩, h2⟩, rfl, g4⟩
    · rw [htime e.2 e'.2 g2]; exact h1
    · rw [g1, List.map_map]; rfl
    · obtain ⟨_, hA, -⟩ := h3
      simpa using hA.nonempty
    · intro g hg
      obtain ⟨l, hl, rfl⟩ := List.mem_map.1 hg
      obtain ⟨a, haa, rfl⟩ := List.mem_map.1 hl
      obtain ⟨k, hk⟩ := List.mem_iff_getElem?.1 haa
      have hle := asks_le h3 hk
      obtain ⟨_, -, -, hax, -⟩ := h3
      obtain ⟨-, h5, -⟩ := hax a haa
      show a.nodesOut ≠ []
      intro e
      have := congrArg List.length e
      simp only [SelAxis.nodesOut, List.length_take, List.length_drop, List.length_nil] at this
      split at this <;> omega
  have hCC : C'.map Prod.fst = C.map Prod.fst := by
    have : ∀ {C C' : List (F × NArr F)}, List.Forall₂ (fun c c' : F × NArr F => c'.1 = c.1 ∧ IsPart c.2 c'.2 axes cs) C C' →
        C'.map Prod.fst = C.map Prod.fst := by
      intro C C' h
      induction h with
      | nil => rfl
      | cons h _ ih => simp [h.1, ih]
    exact this hC2
  have hC' : C' ≠ [] := by
    intro e
    rw [e] at hCC
    exact hC (List.map_eq_nil_iff.1 hCC.symm)
  obtain ⟨sSC, order', out', V', b1, -, -, -, b2, b3, b4, b5, b6, b7, b8, b9, b10⟩ := collect_frames (frameOf := frameOf) ha fmod
    hSinv h0 hcm hu hT hsd hp hc hSl (G := axes.map (·.nodesOut)) (by simp) hC' (by rw [hCC]; exact hn) hC1
  obtain ⟨sC, order, out, V, c1, c2, c3, c4, c5, c6, c7, c8, c9, c10, c11, c12, c13⟩ := collect_frames (frameOf := frameOf) ha
    fmod hi h0 hcm hu hT hsd hp hc hl (G := axes.map (·.nodes)) (sh := axes.map (·.n) ++ [nc]) (by simp) hC hn
    (hL.imp fun e c h => ⟨by rw [← h.2.2.2]; exact asks_frame h.1 h.2.2.1, h.2.1⟩)
  obtain ⟨c0, hc0⟩ := List.exists_mem_of_ne_nil C hC
  obtain ⟨e0, -, -, -, hask0, hsh0⟩ := forall₂_mem hL c0 hc0
  obtain ⟨nc', hA0, hcomp, hax, hz⟩ := id hask0
  have hnc : nc' = nc := by
    have := hA0.shape
    rw [hsh0] at this
    simpa using this.symm
  subst hnc
  have hol : order.length = C.length := c6.length_eq
  have hpos : 0 < order.length := by rw [hol]; exact List.length_pos_of_ne_nil hC
  obtain ⟨sCS, r, d1, d2, d3, -, w, d4, d5⟩ := select_collected (z0 := none) h5 hcomp hax hz c2 h0 hcm c3 c4 c5 c7 c8 c9 c10
    (by simpa using c11) (by rw [c12, hol]) hpos .all label
  refine ⟨sS, sSC, sC, sCS, a1, b1, c1, d1, ?_⟩
  have hot : order'.map Prod.fst = order.map Prod.fst :=
    sorted_unique ((b3.map Prod.fst).trans (by rw [hCC]; exact (c6.map Prod.fst).symm)) (b4.imp le_of_lt) (c7.imp le_of_lt)
  have hwV : V' = w := by
    refine NArr.ext_get? b7 d5.1 ?_ ?_
    · rw [b9, d5.2.1, List.map_cons]
      simp [frameAxis, hol, hC2.length_eq]
    · intro idx hi'
      rw [b9] at hi'
      match idx with
      | [] => simp [inRange] at hi'
      | k :: r =>
        simp only [inRange, Bool.and_eq_true, decide_eq_true_eq] at hi'
        obtain ⟨hk, hr⟩ := hi'
        obtain ⟨i, j, rfl, hi1, hj⟩ := inRange_snoc' hr
        have hk' : k < order'.length := by rw [b3.length_eq]; exact hk
        have hk2 : k < order.length := by rw [hol, hC2.length_eq]; exact hk
        have hm' : order'[k] ∈ C' := b3.mem_iff.1 (List.getElem_mem hk')
        have hm : order[k] ∈ C := c6.mem_iff.1 (List.getElem_mem hk2)
        obtain ⟨c, hcC, hc1, hc2⟩ := forall₂_mem hC2 _ hm'
        have hfst : order'[k].1 = order[k].1 := by
          have : (order'.map Prod.fst)[k]'(by simpa using hk') = (order.map Prod.fst)[k]'(by simpa using hk2) := by
            simp only [hot]
          simpa using this
        have hcc : c = order[k] := List.inj_on_of_nodup_map hn hcC hm (by rw [← hc1, hfst])
        rw [hcc] at hc2
        have hjs : cs[j]? = some cs[j] := List.getElem?_eq_getElem hj
        rw [b10 k _ (List.getElem?_eq_getElem hk') _ hr, hc2.2.2 i j _ hi1 hjs]
        have hin : inRange ((frameAxis order 0 order.length :: axes).map fun a => a.hi - a.lo) (k :: i) = true := by
          simp only [List.map_cons, inRange, Bool.and_eq_true, decide_eq_true_eq]
          exact ⟨by simpa [frameAxis] using hk2, hi1⟩
        have hw := d5.2.2 (k :: i) j _ hin hjs
        rw [List.cons_append] at hw
        rw [hw, List.map_cons, List.zipWith_cons_cons, List.cons_append]
        refine (c13 k _ (List.getElem?_eq_getElem hk2) _ ?_).symm
        refine inRange_snoc_iff.2 ⟨sel_inRange (fun a haa => ?_) hi1, compDenotes_lt hcomp _ (List.getElem_mem hj)⟩
        obtain ⟨p, hp⟩ := List.mem_iff_getElem?.1 haa
        exact asks_le hask0 hp
  intro k hk
  obtain rfl : k = 0 := by omega
  refine ⟨out', r, _, w, by rw [Nat.add_zero, ← a2.length]; exact b2, d2, b5, ?_, by rw [b6, hwV], d4⟩
  rw [d3, hot, List.map_cons, List.map_map]
  have : (frameAxis order 0 order.length).nodesOut = order.map Prod.fst := by simp [frameAxis, SelAxis.nodesOut]
  rw [this]
  rfl

omit [_root_.Field F] in
/-- The place of a frame among the collected ones. -/
theorem frame_place {order : List (F × NArr F)} (hs : (order.map Prod.fst).Pairwise (· < ·)) {k : Nat} (hk : k < order.length) :
    (order.filter fun c => decide (c.1 < order[k].1)).length = k := by
  have hlt : ∀ i j (hi : i < order.length) (hj : j < order.length), i < j → order[i].1 < order[j].1 := by
    intro i j hi hj hij
    have := List.pairwise_iff_getElem.1 hs i j (by simpa using hi) (by simpa using hj) hij
    simpa using this
  have h1 : (order.take k).filter (fun c => decide (c.1 < order[k].1)) = order.take k := by
    rw [List.filter_eq_self]
    intro c hc
    obtain ⟨i, hi, rfl⟩ := List.mem_iff_getElem.1 hc
    rw [List.length_take] at hi
    simpa using hlt i k (by omega) hk (by omega)
  have h2 : (order.drop k).filter (fun c => decide (c.1 < order[k].1)) = [] := by
    rw [List.filter_eq_nil_iff]
    intro c hc
    obtain ⟨i, hi, rfl⟩ := List.mem_iff_getElem.1 hc
    rw [List.length_drop] at hi
    simp only [List.getElem_drop, decide_eq_true_eq, not_lt]
    rcases Nat.eq_zero_or_pos i with rfl | hp
    · simp
    · exact (hlt k (k + i) hk (by omega) (by omega)).le
  have h3 := congrArg (List.filter fun c => decide (c.1 < order[k].1)) (List.take_append_drop k order)
  rw [List.filter_append, h1, h2] at h3
  rw [← h3]
  simp
  omega

/-- Selecting one frame from the collected ones. -/
theorem one_frame {timeOf : GData F → Option F} {frameOf : GData F → Option Int} {argsort : List F → List Nat}
    (ha : IsArgsort argsort) (fmod : F → F → F) {o : Opts F} {s : Space F} (hs : Reachable s) {tag : Tag} (h0 : tag ≠ [])
    (hcm : ',' ∉ tag) (hu : o.use = some tag) (hT : o.tag = none) (hsd : o.sumdata = false) (hp : o.period = none)
    (hc : o.chunk = none) {ids : List Nat} (hl : s.lookup tag = some ids) {pf : List Char → Option F}
    {axes : List (SelAxis F)} {nc : Nat} (h5 : axes.length ≤ 5)
    {C : List (F × NArr F)} (hn : (C.map Prod.fst).Nodup)
    (hL : List.Forall₂ (fun e c => timeOf e.2 = some c.1 ∧ c.1 ≠ 0 ∧ Asks pf none [] e.2 axes c.2 (List.range nc))
      (activeOf s ids) C) {c : F × NArr F} (hcC : c ∈ C) {x : List Char}
    (hx : ∀ order : List (F × NArr F), order.Perm C → (order.map Prod.fst).Pairwise (· < ·) → ∀ k, order[k]? = some c →
      TextDenotes pf (order.map Prod.fst) order.length (some x) k (k + 1))
    (label : List Char) :
    ∃ sC sCS r w, collectCmd timeOf frameOf argsort fmod o s = .ok sC ∧
      selectCmd pf none [some x] (some tag) none label sC = .ok sCS ∧ sCS.heap[s.heap.length]? = some r ∧
      r.grid = some (NArr.ofList [c.1] :: axes.map fun a => NArr.ofList a.nodes) ∧ r.values = some w ∧ w.WF ∧
      w.shape = 1 :: c.2.shape ∧ ∀ i, inRange c.2.shape i = true → w.get? (0 :: i) = c.2.get? i := by
  have hi := Space.reachable_inv hs
  have hC : C ≠ [] := List.ne_nil_of_mem hcC
  have hnc : ∀ e : Nat × GData F, ∀ v, Asks pf none [] e.2 axes v (List.range nc) → v.shape = axes.map (·.n) ++ [nc] := by
    intro e v h
    obtain ⟨nc', hA, hcd, -, -⟩ := h
    rw [hA.shape]
    rw [Option.map_none] at hcd
    generalize hz : List.range nc = l at hcd
    cases hcd
    have := congrArg List.length hz
    simp only [List.length_range] at this
    rw [this]
  obtain ⟨sC, order, out, V, c1, c2, c3, c4, c5, c6, c7, c8, c9, c10, c11, c12, c13⟩ := collect_frames (frameOf := frameOf) ha
    fmod hi h0 hcm hu hT hsd hp hc hl (G := axes.map (·.nodes)) (sh := axes.map (·.n) ++ [nc]) (by simp) hC hn
    (hL.imp fun e c h => ⟨by rw [← hnc e c.2 h.2.2]; exact asks_frame h.1 h.2.2, h.2.1⟩)
  obtain ⟨e0, -, -, -, hask0⟩ := forall₂_mem hL c hcC
  have hsh0 := hnc e0 c.2 hask0
  obtain ⟨nc', hA0, hcomp, hax, hz⟩ := id hask0
  have hnc' : nc' = nc := by
    have := hA0.shape
    rw [hsh0] at this
    simpa using this.symm
  subst hnc'
  have hol : order.length = C.length := c6.length_eq
  obtain ⟨k, hk⟩ := List.mem_iff_getElem?.1 (c6.mem_iff.2 hcC)
  obtain ⟨hkl, hke⟩ := List.getElem?_eq_some_iff.1 hk
  obtain ⟨sCS, r, d1, d2, d3, -, w, d4, d5⟩ := select_collected (z0 := some x) (comp := none) (zs := []) h5 hcomp hax hz c2 h0 hcm
    c3 c4 c5 c7 c8 c9 c10 (by simpa using c11) (by rw [c12, hol]) (Nat.lt_succ_self k) (hx order c6 c7 k hk) label
  have hwhole : ∀ a ∈ axes, a.lo = 0 ∧ a.hi = a.n := by
    intro a haa
    obtain ⟨p, hp⟩ := List.mem_iff_getElem?.1 haa
    have := hz p a hp
    simp only [List.getElem?_nil, Option.getD_none] at this
    generalize hlo : a.lo = lo at this
    generalize hhi : a.hi = hi at this
    cases this
    exact ⟨rfl, rfl⟩
  have hm1 : (axes.map fun a => a.hi - a.lo) = axes.map (·.n) :=
    List.map_congr_left fun a haa => by rw [(hwhole a haa).1, (hwhole a haa).2]; rfl
  have hnodes : (axes.map fun a => NArr.ofList a.nodesOut) = axes.map fun a => NArr.ofList a.nodes :=
    List.map_congr_left fun a haa => by
      rw [SelAxis.nodesOut, (hwhole a haa).1, (hwhole a haa).2]
      congr 1
      rw [List.drop_zero, List.take_of_length_le]
      have := (hax a haa).2.1
      split <;> omega
  have hone : (frameAxis order k (k + 1)).nodesOut = [c.1] := by
    have hd : order.drop k = c :: order.drop (k + 1) := by rw [List.drop_eq_getElem_cons hkl, hke]
    simp only [frameAxis, SelAxis.nodesOut, List.length_map, if_true, Nat.add_sub_cancel_left]
    rw [← List.map_drop, hd]
    rfl
  refine ⟨sC, sCS, r, w, c1, d1, d2, ?_, d4, d5.1, ?_, fun i hi => ?_⟩
  · rw [d3, List.map_cons, hone, hnodes]
  · rw [d5.2.1, List.map_cons, hm1, hsh0]
    simp [frameAxis]
  · rw [hsh0] at hi
    obtain ⟨i, j, rfl, hi1, hj⟩ := inRange_snoc' hi
    have hin : inRange ((frameAxis order k (k + 1) :: axes).map fun a => a.hi - a.lo) (0 :: i) = true := by
      simp only [List.map_cons, inRange, Bool.and_eq_true, decide_eq_true_eq, hm1]
      exact ⟨by simp [frameAxis], hi1⟩
    have hw := d5.2.2 (0 :: i) j j hin (by simp [hj])
    rw [List.cons_append] at hw
    have hzip : List.zipWith (· + ·) i (axes.map (·.lo)) = i := by
      have hlen : i.length = axes.length := by simpa using inRange_length hi1
      have hlo : axes.map (·.lo) = List.replicate axes.length 0 := by
        rw [List.eq_replicate_iff]
        exact ⟨by simp, fun b hb => by obtain ⟨a, h1, rfl⟩ := List.mem_map.1 hb; exact (hwhole a h1).1⟩
      rw [hlo, ← hlen]
      refine List.ext_getElem (by simp) fun p h1 h2 => by simp
    rw [hw, List.map_cons, List.zipWith_cons_cons, List.cons_append, hzip]
    simpa [frameAxis] using c13 k c hk (i ++ [j]) hi

/-- C138: `collect` followed by `select --z0 t` gives back the frame of the time `t`, and if there is none the next one: the
first not before `t`. -/
theorem C138_time {timeOf : GData F → Option F} {frameOf : GData F → Option Int} {argsort : List F → List Nat}
    (ha : IsArgsort argsort) (fmod : F → F → F) {o : Opts F} {s : Space F} (hs : Reachable s) {tag : Tag} (h0 : tag ≠ [])
    (hcm : ',' ∉ tag) (hu : o.use = some tag) (hT : o.tag = none) (hsd : o.sumdata = false) (hp : o.period = none)
    (hc : o.chunk = none) {ids : List Nat} (hl : s.lookup tag = some ids) {pf : List Char → Option F}
    {axes : List (SelAxis F)} {nc : Nat} (h5 : axes.length ≤ 5)
    {C : List (F × NArr F)} (hn : (C.map Prod.fst).Nodup)
    (hL : List.Forall₂ (fun e c => timeOf e.2 = some c.1 ∧ c.1 ≠ 0 ∧ Asks pf none [] e.2 axes c.2 (List.range nc))
      (activeOf s ids) C) {x : List Char} {t : F} (hx : CoordText pf x t) {c : F × NArr F} (hcC : c ∈ C) (hle : t ≤ c.1)
    (hnext : ∀ c' ∈ C, t ≤ c'.1 → c.1 ≤ c'.1) (label : List Char) :
    ∃ sC sCS r w, collectCmd timeOf frameOf argsort fmod o s = .ok sC ∧
      selectCmd pf none [some x] (some tag) none label sC = .ok sCS ∧ sCS.heap[s.heap.length]? = some r ∧
      r.grid = some (NArr.ofList [c.1] :: axes.map fun a => NArr.ofList a.nodes) ∧ r.values = some w ∧ w.WF ∧
      w.shape = 1 :: c.2.shape ∧ ∀ i, inRange c.2.shape i = true → w.get? (0 :: i) = c.2.get? i := by
  refine one_frame ha fmod hs h0 hcm hu hT hsd hp hc hl h5 hn hL hcC (fun order hperm hord k hk => ?_) label
  have hkl := (List.getElem?_eq_some_iff.1 hk).1
  refine .coord hx (.nodalCoord t k (by simp) ⟨by simp; omega, fun j y hj hy => ?_, fun y hy => ?_⟩ hkl)
  · rw [List.getElem?_map] at hy
    cases hoj : order[j]? with
    | none => simp [hoj] at hy
    | some e =>
      simp only [hoj, Option.map_some, Option.some.injEq] at hy
      subst hy
      by_contra hcon
      have h1 := hnext e (hperm.mem_iff.1 (List.mem_of_getElem? hoj)) (not_lt.1 hcon)
      have hjl := (List.getElem?_eq_some_iff.1 hoj).1
      have h2 := List.pairwise_iff_getElem.1 hord j k (by simpa using hjl) (by simpa using hkl) hj
      simp only [List.getElem_map] at h2
      rw [(List.getElem?_eq_some_iff.1 hoj).2, (List.getElem?_eq_some_iff.1 hk).2] at h2
      exact absurd h2 (not_lt.2 h1)
  · rw [List.getElem?_map, hk] at hy
    simp only [Option.map_some, Option.some.injEq] at hy
    rw [← hy]; exact hle

/-- C138: `collect` followed by `select --z0 n` gives back the frame with `n` earlier frames. -/
theorem C138_number {timeOf : GData F → Option F} {frameOf : GData F → Option Int} {argsort : List F → List Nat}
    (ha : IsArgsort argsort) (fmod : F → F → F) {o : Opts F} {s : Space F} (hs : Reachable s) {tag : Tag} (h0 : tag ≠ [])
    (hcm : ',' ∉ tag) (hu : o.use = some tag) (hT : o.tag = none) (hsd : o.sumdata = false) (hp : o.period = none)
    (hc : o.chunk = none) {ids : List Nat} (hl : s.lookup tag = some ids) {pf : List Char → Option F}
    {axes : List (SelAxis F)} {nc : Nat} (h5 : axes.length ≤ 5)
    {C : List (F × NArr F)} (hn : (C.map Prod.fst).Nodup)
    (hL : List.Forall₂ (fun e c => timeOf e.2 = some c.1 ∧ c.1 ≠ 0 ∧ Asks pf none [] e.2 axes c.2 (List.range nc))
      (activeOf s ids) C) {c : F × NArr F} (hcC : c ∈ C) {n : Nat}
    (hnum : (C.filter fun c' => decide (c'.1 < c.1)).length = n) (label : List Char) :
    ∃ sC sCS r w, collectCmd timeOf frameOf argsort fmod o s = .ok sC ∧
      selectCmd pf none [some (dec n)] (some tag) none label sC = .ok sCS ∧ sCS.heap[s.heap.length]? = some r ∧
      r.grid = some (NArr.ofList [c.1] :: axes.map fun a => NArr.ofList a.nodes) ∧ r.values = some w ∧ w.WF ∧
      w.shape = 1 :: c.2.shape ∧ ∀ i, inRange c.2.shape i = true → w.get? (0 :: i) = c.2.get? i := by
  refine one_frame ha fmod hs h0 hcm hu hT hsd hp hc hl h5 hn hL hcC (fun order hperm hord k hk => ?_) label
  obtain ⟨hkl, hke⟩ := List.getElem?_eq_some_iff.1 hk
  have := frame_place hord hkl
  rw [hke, (hperm.filter _).length_eq, hnum] at this
  subst this
  exact .numbers (.indexStr n hkl)

end
namespace CollectSelEx
open CollectEx

/-- Two frames, at the times 3 and 1. -/
def store : Space ℚ := (({} : Space ℚ).addNew (frame "3" 5 6)).addNew (frame "1" 7 8)

def C : List (ℚ × NArr ℚ) := [(3, ⟨[2, 1], [5, 6]⟩), (1, ⟨[2, 1], [7, 8]⟩)]

/-- `float` on the text used below. -/
def pf (t : List Char) : Option ℚ := if t = "1.5".toList then some (3 / 2) else none

theorem asks (time : String) (a b : ℚ) (z : Option (List Char)) (lo hi : Nat) (h : lo < hi)
    (hz : TextDenotes pf [0, 1, 2] 2 z lo hi) :
    Asks pf none [z] (frame time a b) [⟨[0, 1, 2], 2, none, lo, hi⟩] ⟨[2, 1], [a, b]⟩ (List.range 1) := by
  refine ⟨1, ⟨rfl, rfl, rfl, rfl, rfl, by simp, by simp⟩, .all, ?_, ?_⟩
  · simp [Increasing, h]
  · intro i c hc
    match i, hc with
    | 0, hc => cases hc; exact hz

theorem asks_all (time : String) (a b : ℚ) :
    Asks pf none [] (frame time a b) [⟨[0, 1, 2], 2, none, 0, 2⟩] ⟨[2, 1], [a, b]⟩ (List.range 1) := by
  refine ⟨1, ⟨rfl, rfl, rfl, rfl, rfl, by simp, by simp⟩, .all, ?_, ?_⟩
  · simp [Increasing]
  · intro i c hc
    match i, hc with
    | 0, hc => cases hc; exact .all

/-- `select --z0 1` and `collect` commute for these frames. -/
example : ∃ sS sSC sC sCS, selectCmd pf none [some "1".toList] (some tag) none [] store = .ok sS ∧
    collectCmd timeOf frameOf argsort (fun a _ => a) { use := some tag, offset := 0 } sS = .ok sSC ∧
    collectCmd timeOf frameOf argsort (fun a _ => a) { use := some tag, offset := 0 } store = .ok sC ∧
    selectCmd pf none [none, some "1".toList] (some tag) none [] sC = .ok sCS ∧ SameData 2 1 sSC sCS :=
  C138_select argsort_ok _ ((Reachable.empty.add _).add _) (by decide) (by decide) rfl rfl rfl rfl rfl
    (fun d r h => by simp [timeOf, h]) (ids := [0, 1]) rfl (axes := [⟨[0, 1, 2], 2, none, 1, 2⟩]) (nc := 1) (by simp)
    (C := C) (by simp [C]) (by simp [C])
    (by
      rw [show activeOf _ [0, 1] = [(0, frame "3" 5 6), (1, frame "1" 7 8)] from rfl]
      exact .cons ⟨rfl, by norm_num [C], asks _ _ _ (some "1".toList) 1 2 (by decide) (.numbers (.indexStr 1 (by decide))), rfl⟩
        (.cons ⟨rfl, by norm_num [C], asks _ _ _ (some "1".toList) 1 2 (by decide) (.numbers (.indexStr 1 (by decide))), rfl⟩
        .nil)) []

theorem frames : List.Forall₂ (fun e c => timeOf e.2 = some c.1 ∧ c.1 ≠ 0 ∧
    Asks pf none [] e.2 [⟨[0, 1, 2], 2, none, 0, 2⟩] c.2 (List.range 1)) (activeOf store [0, 1]) C := by
  rw [show activeOf store [0, 1] = [(0, frame "3" 5 6), (1, frame "1" 7 8)] from rfl]
  exact .cons ⟨rfl, by norm_num [C], asks_all _ _ _⟩ (.cons ⟨rfl, by norm_num [C], asks_all _ _ _⟩ .nil)

/-- `collect`, then `select --z0 1.5`: the frame of time 3. -/
example : ∃ sC sCS r w,
    collectCmd timeOf frameOf argsort (fun a _ => a) { use := some tag, offset := 0 } store = .ok sC ∧
    selectCmd pf none [some "1.5".toList] (some tag) none [] sC = .ok sCS ∧ sCS.heap[2]? = some r ∧
    r.grid = some [NArr.ofList [3], NArr.ofList [0, 1, 2]] ∧ r.values = some w ∧ w.WF ∧ w.shape = [1, 2, 1] ∧
    ∀ i, inRange [2, 1] i = true → w.get? (0 :: i) = (⟨[2, 1], [5, 6]⟩ : NArr ℚ).get? i :=
  C138_time argsort_ok _ ((Reachable.empty.add _).add _) (by decide) (by decide) rfl rfl rfl rfl rfl (ids := [0, 1]) rfl
    (by simp) (C := C) (by simp [C]) frames (t := 3 / 2) (by unfold CoordText; decide +kernel)
    (c := (3, ⟨[2, 1], [5, 6]⟩)) (by simp [C]) (by norm_num) (by
      intro c' h1 h2
      simp only [C, List.mem_cons, List.not_mem_nil, or_false] at h1
      rcases h1 with rfl | rfl
      · exact le_refl _
      · norm_num at h2) []

/-- `collect`, then `select --z0 1`: the same. -/
example : ∃ sC sCS r w,
    collectCmd timeOf frameOf argsort (fun a _ => a) { use := some tag, offset := 0 } store = .ok sC ∧
    selectCmd pf none [some (dec 1)] (some tag) none [] sC = .ok sCS ∧ sCS.heap[2]? = some r ∧
    r.grid = some [NArr.ofList [3], NArr.ofList [0, 1, 2]] ∧ r.values = some w ∧ w.WF ∧ w.shape = [1, 2, 1] ∧
    ∀ i, inRange [2, 1] i = true → w.get? (0 :: i) = (⟨[2, 1], [5, 6]⟩ : NArr ℚ).get? i :=
  C138_number argsort_ok _ ((Reachable.empty.add _).add _) (by decide) (by decide) rfl rfl rfl rfl rfl (ids := [0, 1]) rfl
    (by simp) (C := C) (by simp [C]) frames (c := (3, ⟨[2, 1], [5, 6]⟩)) (by simp [C]) (n := 1) (by decide +kernel) []

end CollectSelEx
end Pgkyl
