import Verif.Props.CollectSelect
import Verif.Props.SelectFluid
import Verif.Lemmas.EvProps
/-!
# C167: fluid quantities of collected frames

Numbers are the elements of a linearly ordered field (exact arithmetic).  Time stamps are not zero (see C32) and distinct.
-/

namespace Pgkyl
open Spec Cmd Collect

section
variable {F : Type} [_root_.Field F] [LinearOrder F]

/-- The frames `C` (times and arrays, `nc` components on `cells`), in some order, one after another along a first axis. -/
structure Stacked (C order : List (F × NArr F)) (cells : List Nat) (nc : Nat) (V : NArr F) : Prop where
  perm : order.Perm C
  wf : V.WF
  shape : V.shape = C.length :: (cells ++ [nc])
  get : ∀ (k : Nat) (e : F × NArr F), order[k]? = some e → ∀ r, inRange (cells ++ [nc]) r = true → V.get? (k :: r) = e.2.get? r

/-- A function of the values that treats every cell on its own, given for the frames (`p`) and for the frames in a row. -/
theorem collect_swap {timeOf : GData F → Option F} {frameOf : GData F → Option Int} {argsort : List F → List Nat}
    (ha : IsArgsort argsort) (fmod : F → F → F) {o : Opts F} {s : Space F} (hs : Reachable s) {tag : Tag} (h0 : tag ≠ [])
    (hcm : ',' ∉ tag) (hu : o.use = some tag) (hT : o.tag = none) (hsd : o.sumdata = false) (hp : o.period = none)
    (hc : o.chunk = none) (htime : ∀ d r : GData F, r.ctx.other = d.ctx.other → timeOf r = timeOf d)
    {ids : List Nat} (hl : s.lookup tag = some ids)
    {axes : List (List F)} {cells : List Nat} {nc m : Nat}
    {C : List (F × NArr F)} (hC : C ≠ []) (hn : (C.map Prod.fst).Nodup)
    (hL : List.Forall₂ (fun e c => timeOf e.2 = some c.1 ∧ c.1 ≠ 0 ∧ Rectilinear e.2 axes c.2 ∧ c.2.shape = cells ++ [nc])
      (activeOf s ids) C) {f : NArr F → Except Err (NArr F)} {p : F × NArr F → List Nat → Nat → F}
    (hpart : ∀ c ∈ C, Gives (f c.2) cells m (p c))
    (hwhole : ∀ order V, Stacked C order cells nc V → ∃ P, Gives (f V) (C.length :: cells) m P ∧
      ∀ (k : Nat) (e : F × NArr F), order[k]? = some e → ∀ r, inRange cells r = true → ∀ c < m, P (k :: r) c = p e r c)
    (label : List Char) :
    ∃ sF sFC sC sCF, pushCmd (ofValues f) (some tag) none label s = .ok sF ∧
      collectCmd timeOf frameOf argsort fmod o sF = .ok sFC ∧ collectCmd timeOf frameOf argsort fmod o s = .ok sC ∧
      pushCmd (ofValues f) (some tag) none label sC = .ok sCF ∧ SameData s.heap.length 1 sFC sCF := by
  have hi := Space.reachable_inv hs
  have ht := Space.tagsOf_one s hcm h0
  have hkey : tag ∈ s.dict.map Prod.fst := List.mem_map.2 ⟨_, Space.mem_of_lookup hl, rfl⟩
  have hvis : ∀ id, id ∈ visited s [tag] ↔ id ∈ ids ∧ s.active id = true := by
    intro id
    simp [visited, hl]
  have hactive : ∀ id ∈ visited s [tag], ∀ d, s.heap[id]? = some d → ∃ c ∈ C, Rectilinear d axes c.2 ∧
      c.2.shape = cells ++ [nc] := by
    intro id hid d hd
    obtain ⟨h1, h2⟩ := (hvis id).1 hid
    obtain ⟨k, hk⟩ := List.mem_iff_getElem?.1 h1
    have hst : d.status = true := by simpa [Space.active, hd] using h2
    have hm : (k, d) ∈ activeOf s ids := by
      simp only [activeOf, List.mem_filterMap]
      exact ⟨(id, k), List.mem_zipIdx_iff_getElem?.2 hk, by simp [hd, hst]⟩
    obtain ⟨c, hcC, -, -, h3, h4⟩ := Ev.forall₂_mem_left hL hm
    exact ⟨c, hcC, h3, h4⟩
  -- what is common to all frames
  obtain ⟨c0, hc0⟩ := List.exists_mem_of_ne_nil C hC
  obtain ⟨e0, -, -, -, hr0, hsh0⟩ := forall₂_mem hL c0 hc0
  have hlen : cells.length = axes.length := by
    have := hr0.shape
    rw [hsh0] at this
    simpa using this
  have hax : ∀ g ∈ axes.map (NArr.ofList (α := F)), g.data ≠ [] := by
    intro g hg
    obtain ⟨y, hy, rfl⟩ := List.mem_map.1 hg
    exact hr0.nodes y hy
  obtain ⟨sF, a1, a2⟩ := pushCmd_replaces' (f := ofValues f) hi (use := some tag) (by rw [ht]; simpa using hkey) (by rw [ht]; simp)
    label (R := fun d r => ∀ c ∈ C, Rectilinear d axes c.2 → r.grid = some (axes.map NArr.ofList) ∧ r.ctx.other = d.ctx.other ∧
      ∃ w, r.values = some w ∧ f c.2 = .ok w) (by
    intro id hid d hd
    rw [ht] at hid
    obtain ⟨c, hcC, h1, h2⟩ := hactive id hid d hd
    obtain ⟨w, k1, k2⟩ := hpart c hcC
    refine ⟨axes.map NArr.ofList, w, by simp only [ofValues, h1.grid, h1.values, k1, bind, Except.bind, pure, Except.pure], ?_⟩
    intro e he
    obtain ⟨r, q1, q2⟩ := push_field (g := axes.map NArr.ofList) (by simp [hlen]) hax k2 e
    refine ⟨r, q1, fun c' hc' h' => ⟨q2.1, ?_, w, ?_, ?_⟩⟩
    · rw [← he]; exact (push_tag q1).2.2.1
    · obtain ⟨-, -, -, v, q3, q4⟩ := q2
      rw [q3, field_ext q4 k2 fun _ _ _ _ => rfl]
    · have : c'.2 = c.2 := Option.some.inj (h'.values.symm.trans h1.values)
      rw [this]; exact k1)
  rw [ht] at a2
  have hFinv : sF.Inv := hi.congr a2.lists a2.length
  have hFl : sF.lookup tag = some ids := by rw [← hl]; simp only [Space.lookup, a2.lists]
  have hF := activeOf_replaced a2 ids 0 (fun id h1 h2 => (hvis id).2 ⟨h1, h2⟩) (fun id h => ((hvis id).1 h).2)
  -- the frames after the function
  obtain ⟨C', hC1, hC2⟩ : ∃ C' : List (F × NArr F),
      List.Forall₂ (fun e c => Frame timeOf (cells ++ [m]) e.2 (c.1, c.2, axes.map NArr.ofList) ∧ c.1 ≠ 0) (activeOf sF ids) C' ∧
      List.Forall₂ (fun c c' : F × NArr F => c'.1 = c.1 ∧ (c ∈ C → IsField c'.2 cells m (p c))) C C' := by
    have hL' : List.Forall₂ (fun e c => (timeOf e.2 = some c.1 ∧ c.1 ≠ 0 ∧ Rectilinear e.2 axes c.2 ∧ c.2.shape = cells ++ [nc]) ∧
        c ∈ C) (activeOf s ids) C := by
      rw [List.forall₂_iff_get] at hL ⊢
      exact ⟨hL.1, fun i h1 h2 => ⟨hL.2 i h1 h2, List.getElem_mem _⟩⟩
    refine forall₂_choose (fun e e' c hP hQ => ?_) hL' hF
    obtain ⟨⟨h1, h2, h3, h4⟩, hcC⟩ := hP
    obtain ⟨g1, g2, w, g3, g4⟩ := hQ.2 c hcC h3
    obtain ⟨w', k1, k2⟩ := hpart c hcC
    obtain rfl : w = w' := Except.ok.inj (g4.symm.trans k1)
    refine ⟨(c.1, w), ⟨⟨?_, g3, k2.wf, k2.shape, g1, by simp [hlen], by simpa using hr0.nonempty, hax⟩, h2⟩, rfl, fun _ => k2⟩
    rw [htime e.2 e'.2 g2]; exact h1
  have hCC : C'.map Prod.fst = C.map Prod.fst := by
    have h2 := hC2.imp fun c c' h => h.1
    clear * - h2
    induction h2 with
    | nil => rfl
    | cons h _ ih => simp [h, ih]
  have hC' : C' ≠ [] := by
    intro e
    rw [e] at hCC
    exact hC (List.map_eq_nil_iff.1 hCC.symm)
  obtain ⟨sFC, order', out', V', b1, -, -, -, b2, b3, b4, b5, b6, b7, b8, b9, b10⟩ := collect_frames (frameOf := frameOf) ha fmod
    hFinv h0 hcm hu hT hsd hp hc hFl (G := axes) (by simp [hlen]) hC' (by rw [hCC]; exact hn) hC1
  obtain ⟨sC, order, out, V, c1, c2, c3, c4, c5, c6, c7, c8, c9, c10, c11, c12, c13⟩ := collect_frames (frameOf := frameOf) ha
    fmod hi h0 hcm hu hT hsd hp hc hl (G := axes) (sh := cells ++ [nc]) (by simp [hlen]) hC hn
    (hL.imp fun e c h => ⟨⟨h.1, h.2.2.1.values, h.2.2.1.wf, h.2.2.2, h.2.2.1.grid, by simp [hlen],
      by simpa using hr0.nonempty, hax⟩, h.2.1⟩)
  have hol : order.length = C.length := c6.length_eq
  -- the function of the collected dataset
  obtain ⟨P, ⟨w, e1, e2⟩, hP⟩ := hwhole order V ⟨c6, c10, c12, c13⟩
  have htC := Space.tagsOf_one sC hcm h0
  obtain ⟨sCF, d1, d2⟩ := pushCmd_replaces' (f := ofValues f) c2 (use := some tag) (by rw [htC]; simpa using c4)
    (by rw [htC]; simp) label (R := fun _ r => r.grid = some (NArr.ofList (order.map Prod.fst) :: axes.map NArr.ofList) ∧
      r.values = some w) (by
    intro id hid d hd
    rw [htC, c3, List.mem_singleton] at hid
    subst hid
    rw [c5] at hd
    obtain rfl := Option.some.inj hd
    refine ⟨NArr.ofList (order.map Prod.fst) :: axes.map NArr.ofList, w, by simp only [ofValues, c8, c9, e1, bind, Except.bind, pure, Except.pure], fun e _ => ?_⟩
    obtain ⟨r, q1, q2, -, -, v, q3, q4⟩ := push_field (g := NArr.ofList (order.map Prod.fst) :: axes.map NArr.ofList)
      (by simp [hlen]) (by
        intro g hg
        rcases List.mem_cons.1 hg with rfl | hg
        · intro e
          have h1 : order.map Prod.fst = [] := e
          have h2 := congrArg List.length h1
          rw [List.length_map, hol] at h2
          exact hC (List.length_eq_zero_iff.1 h2)
        · exact hax g hg) e2 e
    exact ⟨r, q1, q2, by rw [q3, field_ext q4 e2 fun _ _ _ _ => rfl]⟩)
  rw [htC, c3] at d2
  obtain ⟨d, r, -, g2, -, -, p1, p2⟩ := d2.results s.heap.length (by simp)
  refine ⟨sF, sFC, sC, sCF, a1, b1, c1, d1, ?_⟩
  have hot : order'.map Prod.fst = order.map Prod.fst :=
    sorted_unique ((b3.map Prod.fst).trans (by rw [hCC]; exact (c6.map Prod.fst).symm)) (b4.imp le_of_lt) (c7.imp le_of_lt)
  have hwV : V' = w := by
    refine NArr.ext_get? b7 e2.wf (by rw [b9, e2.shape, hC2.length_eq]; rfl) ?_
    intro idx hidx
    rw [b9] at hidx
    match idx with
    | [] => simp [inRange] at hidx
    | k :: r =>
      simp only [inRange, Bool.and_eq_true, decide_eq_true_eq] at hidx
      obtain ⟨hk, hr⟩ := hidx
      obtain ⟨i, j, rfl, hi, hj⟩ := inRange_snoc' hr
      have hk' : k < order'.length := by rw [b3.length_eq]; exact hk
      have hkC : k < C.length := by rw [hC2.length_eq]; exact hk
      have hk2 : k < order.length := by rw [hol]; exact hkC
      have hm' : order'[k] ∈ C' := b3.mem_iff.1 (List.getElem_mem hk')
      have hm : order[k] ∈ C := c6.mem_iff.1 (List.getElem_mem hk2)
      obtain ⟨c, hcC, hc1, hc2⟩ := forall₂_mem hC2 _ hm'
      have hfst : order'[k].1 = order[k].1 := by
        have : (order'.map Prod.fst)[k]'(by simpa using hk') = (order.map Prod.fst)[k]'(by simpa using hk2) := by
          simp only [hot]
        simpa using this
      have hcc : c = order[k] := List.inj_on_of_nodup_map hn hcC hm (by rw [← hc1, hfst])
      have hcF := hc2 hcC
      rw [hcc] at hcF
      rw [b10 k _ (List.getElem?_eq_getElem hk') _ hr, hcF.get i hi j hj, ← List.cons_append,
        e2.get (k :: i) (by simp only [inRange, Bool.and_eq_true, decide_eq_true_eq]; exact ⟨hkC, hi⟩) j hj,
        hP k _ (List.getElem?_eq_getElem hk2) i hi j hj]
  intro k hk
  obtain rfl : k = 0 := by omega
  exact ⟨out', r, _, w, by rw [Nat.add_zero, ← a2.length]; exact b2, g2, b5, by rw [p1, hot], by rw [b6, hwV], p2⟩

/-- Several gases in a row: the first cell number says which. -/
def Gas.stack (Gs : Nat → Gas F) (n : Nat) (cells : List Nat) (nc : Nat) : Gas F where
  cells := n :: cells
  comps := nc
  rho i := (Gs (i.headD 0)).rho i.tail
  u i := (Gs (i.headD 0)).u i.tail
  p i := (Gs (i.headD 0)).p i.tail
  P i := (Gs (i.headD 0)).P i.tail
  B i := (Gs (i.headD 0)).B i.tail

/-- What is common to the fluid commands. -/
theorem fluid_collect {var : Option (NArr F → Except Err (NArr F))} {ok : Gas F → Prop}
    {state : Gas F → List Nat → Nat → F} {table : Gas F → List Nat → String → Option (Nat × (Nat → F))} {name : String}
    (h : ∃ f, var = some f ∧ ∀ G, ok G → ∀ x, IsField x G.cells G.comps (state G) →
      ∃ n p, (∀ i, table G i name = some (n, p i)) ∧ Gives (f x) G.cells n p)
    (hstate : ∀ Gs n cells nc k i, state (Gas.stack Gs n cells nc) (k :: i) = state (Gs k) i)
    (htable : ∀ Gs n cells nc k i, table (Gas.stack Gs n cells nc) (k :: i) = table (Gs k) i)
    (hcount : ∀ G G' i i' n n' q q', table G i name = some (n, q) → table G' i' name = some (n', q') → n = n')
    {timeOf : GData F → Option F} {frameOf : GData F → Option Int} {argsort : List F → List Nat}
    (ha : IsArgsort argsort) (fmod : F → F → F) {o : Opts F} {s : Space F} (hs : Reachable s) {tag : Tag} (h0 : tag ≠ [])
    (hcm : ',' ∉ tag) (hu : o.use = some tag) (hT : o.tag = none) (hsd : o.sumdata = false) (hp : o.period = none)
    (hc : o.chunk = none) (htime : ∀ d r : GData F, r.ctx.other = d.ctx.other → timeOf r = timeOf d)
    {ids : List Nat} (hl : s.lookup tag = some ids) {axes : List (List F)} {cells : List Nat} {nc : Nat}
    {C : List (F × NArr F)} (hC : C ≠ []) (hn : (C.map Prod.fst).Nodup)
    (hstack : ∀ Gs : Nat → Gas F, (∀ k, ok (Gs k) ∧ (Gs k).cells = cells ∧ (Gs k).comps = nc) →
      ok (Gas.stack Gs C.length cells nc))
    (hL : List.Forall₂ (fun e c => timeOf e.2 = some c.1 ∧ c.1 ≠ 0 ∧ Rectilinear e.2 axes c.2 ∧
      ∃ G, (ok G ∧ ∃ g, HoldsField e.2 g G.cells G.comps (state G)) ∧ G.cells = cells ∧ G.comps = nc) (activeOf s ids) C)
    (label : List Char) :
    ∃ sF sFC sC sCF, fluidCmd var (some tag) none label s = .ok sF ∧
      collectCmd timeOf frameOf argsort fmod o sF = .ok sFC ∧ collectCmd timeOf frameOf argsort fmod o s = .ok sC ∧
      fluidCmd var (some tag) none label sC = .ok sCF ∧ SameData s.heap.length 1 sFC sCF := by
  obtain ⟨f, rfl, hf⟩ := h
  simp only [fluidCmd_some]
  have hgas : ∀ c ∈ C, ∃ G : Gas F, ok G ∧ G.cells = cells ∧ G.comps = nc ∧ IsField c.2 cells nc (state G) := by
    intro c hcC
    obtain ⟨e, -, -, -, h3, G, ⟨h4, g, -, -, -, v, h5, h6⟩, rfl, rfl⟩ := forall₂_mem hL c hcC
    obtain rfl : c.2 = v := Option.some.inj (h3.values.symm.trans h5)
    exact ⟨G, h4, rfl, rfl, h6⟩
  obtain ⟨c0, hc0⟩ := List.exists_mem_of_ne_nil C hC
  obtain ⟨G0, hG0⟩ := hgas c0 hc0
  obtain ⟨m, q0, hm0⟩ : ∃ m q, table G0 [] name = some (m, q) := by
    obtain ⟨n, p, t1, -⟩ := hf G0 hG0.1 c0.2 (by rw [hG0.2.1, hG0.2.2.1]; exact hG0.2.2.2)
    exact ⟨n, _, t1 []⟩
  have hm : ∀ G i n q, table G i name = some (n, q) → n = m := fun G i n q h => hcount _ _ _ _ _ _ _ _ h hm0
  have : ∃ γ : F × NArr F → Gas F, ∀ c ∈ C, ok (γ c) ∧ (γ c).cells = cells ∧ (γ c).comps = nc ∧
      IsField c.2 cells nc (state (γ c)) := by
    classical
    refine ⟨fun c => if h : c ∈ C then (hgas c h).choose else G0, fun c hcC => ?_⟩
    simp only [hcC, dif_pos]
    exact (hgas c hcC).choose_spec
  obtain ⟨γ, hγ⟩ := this
  have hone : ∀ c ∈ C, ∃ p, (∀ i, table (γ c) i name = some (m, p i)) ∧ Gives (f c.2) cells m p := by
    intro c hcC
    obtain ⟨k1, k2, k3, k4⟩ := hγ c hcC
    obtain ⟨n, p, t1, t2⟩ := hf (γ c) k1 c.2 (by rw [k2, k3]; exact k4)
    obtain rfl := hm _ _ _ _ (t1 [])
    rw [k2] at t2
    exact ⟨p, t1, t2⟩
  have hshape : ∀ (e : Nat × GData F) (c : F × NArr F), (Rectilinear e.2 axes c.2 ∧
      ∃ G, (ok G ∧ ∃ g, HoldsField e.2 g G.cells G.comps (state G)) ∧ G.cells = cells ∧ G.comps = nc) →
      c.2.shape = cells ++ [nc] := by
    rintro e c ⟨h3, G, ⟨h4, g, -, -, -, v, h5, h6⟩, rfl, rfl⟩
    obtain rfl : c.2 = v := Option.some.inj (h3.values.symm.trans h5)
    exact h6.shape
  refine collect_swap ha fmod hs h0 hcm hu hT hsd hp hc htime hl (axes := axes) (cells := cells) (nc := nc) (m := m) hC hn
    (hL.imp fun e c h => ⟨h.1, h.2.1, h.2.2.1, hshape e c h.2.2⟩)
    (p := fun c i j => ((table (γ c) i name).getD (0, fun _ => 0)).2 j) (fun c hcC => ?_) (fun order V hV => ?_) label
  · obtain ⟨p, t1, t2⟩ := hone c hcC
    refine t2.congr fun i _ j _ => ?_
    simp [t1]
  · have hord : ∀ k, order.getD k c0 ∈ C := by
      intro k
      rw [List.getD_eq_getElem?_getD]
      cases hk : order[k]? with
      | none => exact hc0
      | some e => exact hV.perm.mem_iff.1 (List.mem_of_getElem? hk)
    have hin : IsField V (C.length :: cells) nc (state (Gas.stack (fun k => γ (order.getD k c0)) C.length cells nc)) := by
      refine ⟨hV.wf, hV.shape, fun i hi j hj => ?_⟩
      match i with
      | [] => simp [inRange] at hi
      | k :: r =>
        simp only [inRange, Bool.and_eq_true, decide_eq_true_eq] at hi
        have hk : k < order.length := by rw [hV.perm.length_eq]; exact hi.1
        have he := List.getElem?_eq_getElem hk
        rw [List.cons_append, hV.get k _ he _ (inRange_snoc_iff.2 ⟨hi.2, hj⟩), hstate,
          List.getD_eq_getElem?_getD, he, Option.getD_some]
        exact (hγ _ (hV.perm.mem_iff.1 (List.getElem_mem hk))).2.2.2.get r hi.2 j hj
    obtain ⟨n, P, t1, t2⟩ := hf _ (hstack (fun k => γ (order.getD k c0)) fun k =>
      ⟨(hγ _ (hord k)).1, (hγ _ (hord k)).2.1, (hγ _ (hord k)).2.2.1⟩) V hin
    obtain rfl := hm _ _ _ _ (t1 [])
    refine ⟨P, t2, fun k e he r hr c hc => ?_⟩
    have := t1 (k :: r)
    rw [htable, List.getD_eq_getElem?_getD, he, Option.getD_some] at this
    simp [this]

/-- **C167** for `magsq`: computing it of every frame and collecting the results gives the same dataset as collecting the frames
and computing it afterwards. -/
theorem C167_magsq {timeOf : GData F → Option F} {frameOf : GData F → Option Int} {argsort : List F → List Nat}
    (ha : IsArgsort argsort) (fmod : F → F → F) {o : Opts F} {s : Space F} (hs : Reachable s) {tag : Tag} (h0 : tag ≠ [])
    (hcm : ',' ∉ tag) (hu : o.use = some tag) (hT : o.tag = none) (hsd : o.sumdata = false) (hp : o.period = none)
    (hc : o.chunk = none) (htime : ∀ d r : GData F, r.ctx.other = d.ctx.other → timeOf r = timeOf d)
    {ids : List Nat} (hl : s.lookup tag = some ids) {axes : List (List F)} {cells : List Nat} {nc : Nat}
    {C : List (F × NArr F)} (hC : C ≠ []) (hn : (C.map Prod.fst).Nodup) (h3 : 3 ≤ nc)
    (hL : List.Forall₂ (fun e c => timeOf e.2 = some c.1 ∧ c.1 ≠ 0 ∧ Rectilinear e.2 axes c.2 ∧ c.2.shape = cells ++ [nc])
      (activeOf s ids) C) (label : List Char) :
    ∃ sF sFC sC sCF, magsqCmd (some tag) none label s = .ok sF ∧
      collectCmd timeOf frameOf argsort fmod o sF = .ok sFC ∧ collectCmd timeOf frameOf argsort fmod o s = .ok sC ∧
      magsqCmd (some tag) none label sC = .ok sCF ∧ SameData s.heap.length 1 sFC sCF := by
  have hfield : ∀ (v : NArr F) (sh : List Nat), v.WF → v.shape = sh ++ [nc] → IsField v sh nc fun i j => entry v (i ++ [j]) := by
    intro v sh hw hv
    refine ⟨hw, hv, fun i hi j hj => ?_⟩
    have hin : inRange v.shape (i ++ [j]) = true := by rw [hv]; exact inRange_snoc_iff.2 ⟨hi, hj⟩
    obtain ⟨x, hx⟩ := Option.isSome_iff_exists.1 (NArr.get?_isSome hw hin)
    simp [entry, hx]
  refine collect_swap ha fmod hs h0 hcm hu hT hsd hp hc htime hl (m := 1) hC hn hL (f := fun v => Tools.magSq v)
    (p := fun c i _ => entry c.2 (i ++ [0]) * entry c.2 (i ++ [0]) + entry c.2 (i ++ [1]) * entry c.2 (i ++ [1]) +
      entry c.2 (i ++ [2]) * entry c.2 (i ++ [2])) (fun c hcC => ?_) (fun order V hV => ?_) label
  · obtain ⟨e, -, -, -, k3, k4⟩ := forall₂_mem hL c hcC
    exact Tools.magSq_three (hfield c.2 cells k3.wf k4) h3
  · refine ⟨_, Tools.magSq_three (hfield V (C.length :: cells) hV.wf hV.shape) h3, fun k e he r hr c _ => ?_⟩
    have : ∀ j < 3, entry V (k :: r ++ [j]) = entry e.2 (r ++ [j]) := by
      intro j hj
      rw [entry, entry, List.cons_append, hV.get k e he _ (inRange_snoc_iff.2 ⟨hr, by omega⟩)]
    rw [this 0 (by omega), this 1 (by omega), this 2 (by omega)]

omit [LinearOrder F] in
theorem stack_dense {Gs : Nat → Gas F} {n nc : Nat} {cells : List Nat} (h : ∀ k, (Gs k).Dense ∧ (Gs k).cells = cells) :
    (Gas.stack Gs n cells nc).Dense := by
  intro i hi
  match i with
  | [] => simp [Gas.stack, inRange] at hi
  | k :: r =>
    simp only [Gas.stack, inRange, Bool.and_eq_true] at hi
    exact (h k).1 r (by rw [(h k).2]; exact hi.2)

variable [CharZero F]

/-- **C167** for `euler`: the frames hold the conserved variables of a gas. -/
theorem C167_euler {sqrt : F → F} {gamma : F} (hg : gamma ≠ 1) {name : String}
    (hv : name ∈ ["density", "xvel", "yvel", "zvel", "vel", "pressure", "ke", "temp", "sound", "mach"])
    {timeOf : GData F → Option F} {frameOf : GData F → Option Int} {argsort : List F → List Nat}
    (ha : IsArgsort argsort) (fmod : F → F → F) {o : Opts F} {s : Space F} (hs : Reachable s) {tag : Tag} (h0 : tag ≠ [])
    (hcm : ',' ∉ tag) (hu : o.use = some tag) (hT : o.tag = none) (hsd : o.sumdata = false) (hp : o.period = none)
    (hc : o.chunk = none) (htime : ∀ d r : GData F, r.ctx.other = d.ctx.other → timeOf r = timeOf d)
    {ids : List Nat} (hl : s.lookup tag = some ids) {axes : List (List F)} {cells : List Nat} {nc : Nat}
    {C : List (F × NArr F)} (hC : C ≠ []) (hn : (C.map Prod.fst).Nodup)
    (hL : List.Forall₂ (fun e c => timeOf e.2 = some c.1 ∧ c.1 ≠ 0 ∧ Rectilinear e.2 axes c.2 ∧
      ∃ G, IsEuler gamma e.2 G ∧ G.cells = cells ∧ G.comps = nc) (activeOf s ids) C) (label : List Char) :
    ∃ sF sFC sC sCF, fluidCmd (eulerVar sqrt gamma name) (some tag) none label s = .ok sF ∧
      collectCmd timeOf frameOf argsort fmod o sF = .ok sFC ∧ collectCmd timeOf frameOf argsort fmod o s = .ok sC ∧
      fluidCmd (eulerVar sqrt gamma name) (some tag) none label sC = .ok sCF ∧ SameData s.heap.length 1 sFC sCF :=
  fluid_collect (eulerVar_gives hg hv) (table := fun G i => eulerQuantity sqrt gamma (G.rho i) (G.u i) (G.p i))
    (fun _ _ _ _ _ _ => rfl) (fun _ _ _ _ _ _ => rfl)
    (by
      simp only [List.mem_cons, List.not_mem_nil, or_false] at hv
      rcases hv with rfl | rfl | rfl | rfl | rfl | rfl | rfl | rfl | rfl | rfl <;>
        intro G G' i i' n n' q q' h h' <;> simp only [eulerQuantity, Option.some.injEq, Prod.mk.injEq] at h h' <;>
          exact h.1.symm.trans h'.1)
    ha fmod hs h0 hcm hu hT hsd hp hc htime hl hC hn
    (fun Gs h => ⟨by rw [← (h 0).2.2] at *; exact (h 0).1.1, stack_dense fun k => ⟨(h k).1.2, (h k).2.1⟩⟩) hL label

/-- **C167** for `mhd`. -/
theorem C167_mhd {sqrt : F → F} {gamma mu0 : F} (hg : gamma ≠ 1) (hmu : mu0 ≠ 0) {name : String}
    (hv : name ∈ ["density", "xvel", "yvel", "zvel", "vel", "Bx", "By", "Bz", "Bi", "magpressure", "pressure", "temp",
      "sound", "mach"])
    {timeOf : GData F → Option F} {frameOf : GData F → Option Int} {argsort : List F → List Nat}
    (ha : IsArgsort argsort) (fmod : F → F → F) {o : Opts F} {s : Space F} (hs : Reachable s) {tag : Tag} (h0 : tag ≠ [])
    (hcm : ',' ∉ tag) (hu : o.use = some tag) (hT : o.tag = none) (hsd : o.sumdata = false) (hp : o.period = none)
    (hc : o.chunk = none) (htime : ∀ d r : GData F, r.ctx.other = d.ctx.other → timeOf r = timeOf d)
    {ids : List Nat} (hl : s.lookup tag = some ids) {axes : List (List F)} {cells : List Nat} {nc : Nat}
    {C : List (F × NArr F)} (hC : C ≠ []) (hn : (C.map Prod.fst).Nodup)
    (hL : List.Forall₂ (fun e c => timeOf e.2 = some c.1 ∧ c.1 ≠ 0 ∧ Rectilinear e.2 axes c.2 ∧
      ∃ G, IsMhd gamma mu0 e.2 G ∧ G.cells = cells ∧ G.comps = nc) (activeOf s ids) C) (label : List Char) :
    ∃ sF sFC sC sCF, fluidCmd (mhdVar sqrt gamma mu0 name) (some tag) none label s = .ok sF ∧
      collectCmd timeOf frameOf argsort fmod o sF = .ok sFC ∧ collectCmd timeOf frameOf argsort fmod o s = .ok sC ∧
      fluidCmd (mhdVar sqrt gamma mu0 name) (some tag) none label sC = .ok sCF ∧ SameData s.heap.length 1 sFC sCF :=
  fluid_collect (mhdVar_gives hg hmu hv)
    (table := fun G i => mhdQuantity sqrt gamma mu0 (G.rho i) (G.u i) (G.p i) (G.B i))
    (fun _ _ _ _ _ _ => rfl) (fun _ _ _ _ _ _ => rfl)
    (by
      simp only [List.mem_cons, List.not_mem_nil, or_false] at hv
      rcases hv with rfl | rfl | rfl | rfl | rfl | rfl | rfl | rfl | rfl | rfl | rfl | rfl | rfl | rfl <;>
        intro G G' i i' n n' q q' h h' <;> simp only [mhdQuantity, Option.some.injEq, Prod.mk.injEq] at h h' <;>
          exact h.1.symm.trans h'.1)
    ha fmod hs h0 hcm hu hT hsd hp hc htime hl hC hn
    (fun Gs h => ⟨by rw [← (h 0).2.2] at *; exact (h 0).1.1, stack_dense fun k => ⟨(h k).1.2, (h k).2.1⟩⟩) hL label

omit [LinearOrder F] [CharZero F] in
theorem ten_count {sqrt : F → F} {gamma : F} {name : String}
    (hv : name ∈ ["density", "xvel", "yvel", "zvel", "vel", "pressureTensor", "pxx", "pxy", "pxz", "pyy", "pyz", "pzz",
      "pressure", "ke", "temp", "sound", "mach"]) {r r' : F} {u u' P P' : Nat → F} {n n' : Nat} {q q' : Nat → F}
    (h : tenQuantity sqrt gamma r u P name = some (n, q)) (h' : tenQuantity sqrt gamma r' u' P' name = some (n', q')) :
    n = n' := by
  have key : ∀ {r : F} {u P : Nat → F} {n : Nat} {q : Nat → F}, tenQuantity sqrt gamma r u P name = some (n, q) →
      n = if name = "vel" then 3 else if name = "pressureTensor" then 6 else 1 := by
    clear h h'
    intro r u P n q h
    unfold tenQuantity at h
    split at h <;> simp_all
  exact (key h).trans (key h').symm

/-- **C167** for `tenmoment`, in part: for `pressureTensor` neither the frames nor the frames in a row may have an axis of length
1 behind a longer one, see `C167_tensor_fails`. -/
theorem C167_ten_partial {sqrt : F → F} {gamma : F} {name : String}
    (hv : name ∈ ["density", "xvel", "yvel", "zvel", "vel", "pressureTensor", "pxx", "pxy", "pxz", "pyy", "pyz", "pzz",
      "pressure", "ke", "temp", "sound", "mach"])
    {timeOf : GData F → Option F} {frameOf : GData F → Option Int} {argsort : List F → List Nat}
    (ha : IsArgsort argsort) (fmod : F → F → F) {o : Opts F} {s : Space F} (hs : Reachable s) {tag : Tag} (h0 : tag ≠ [])
    (hcm : ',' ∉ tag) (hu : o.use = some tag) (hT : o.tag = none) (hsd : o.sumdata = false) (hp : o.period = none)
    (hc : o.chunk = none) (htime : ∀ d r : GData F, r.ctx.other = d.ctx.other → timeOf r = timeOf d)
    {ids : List Nat} (hl : s.lookup tag = some ids) {axes : List (List F)} {cells : List Nat} {nc : Nat}
    {C : List (F × NArr F)} (hC : C ≠ []) (hn : (C.map Prod.fst).Nodup)
    (hL : List.Forall₂ (fun e c => timeOf e.2 = some c.1 ∧ c.1 ≠ 0 ∧ Rectilinear e.2 axes c.2 ∧
      ∃ G, IsTen e.2 G ∧ G.cells = cells ∧ G.comps = nc) (activeOf s ids) C)
    (hones : name = "pressureTensor" → LeadingOnes cells ∧ LeadingOnes (C.length :: cells)) (label : List Char) :
    ∃ sF sFC sC sCF, fluidCmd (tenVar sqrt gamma name) (some tag) none label s = .ok sF ∧
      collectCmd timeOf frameOf argsort fmod o sF = .ok sFC ∧ collectCmd timeOf frameOf argsort fmod o s = .ok sC ∧
      fluidCmd (tenVar sqrt gamma name) (some tag) none label sC = .ok sCF ∧ SameData s.heap.length 1 sFC sCF :=
  fluid_collect (tenVar_gives (sqrt := sqrt) (gamma := gamma) (v := name)
      (shape := fun c => name = "pressureTensor" → LeadingOnes c) (by
        by_cases h : name = "pressureTensor"
        · exact Or.inr ⟨h, fun c hc => hc h⟩
        · left
          simp only [List.mem_cons, List.not_mem_nil, or_false] at hv ⊢
          tauto))
    (table := fun G i => tenQuantity sqrt gamma (G.rho i) (G.u i) (G.P i))
    (fun _ _ _ _ _ _ => rfl) (fun _ _ _ _ _ _ => rfl)
    (fun G G' i i' n n' q q' h h' => ten_count hv h h')
    ha fmod hs h0 hcm hu hT hsd hp hc htime hl hC hn
    (fun Gs h => ⟨by rw [← (h 0).2.2] at *; exact (h 0).1.1, stack_dense fun k => ⟨(h k).1.2.1, (h k).2.1⟩,
      fun e => (hones e).2⟩)
    (hL.imp fun e c ⟨k1, k2, k3, G, ⟨k4, k5⟩, k6, k7⟩ =>
      ⟨k1, k2, k3, G, ⟨⟨k4.1, k4.2, fun e => by rw [k6]; exact (hones e).1⟩, k5⟩, k6, k7⟩) label

omit [CharZero F] in
/-- **C167** fails for the pressure tensor of two or more frames that have an axis of length 1: the frames can be collected, but
the tensor of the collected dataset raises an error, also where that of every frame can be computed (`C90_ten_in_place_partial`: if
no axis of length 1 follows a longer one, as on a single axis of one cell). -/
theorem C167_tensor_fails {sqrt : F → F} {gamma : F} {timeOf : GData F → Option F} {frameOf : GData F → Option Int} {argsort : List F → List Nat}
    (ha : IsArgsort argsort) (fmod : F → F → F) {o : Opts F} {s : Space F} (hs : Reachable s) {tag : Tag} (h0 : tag ≠ [])
    (hcm : ',' ∉ tag) (hu : o.use = some tag) (hT : o.tag = none) (hsd : o.sumdata = false) (hp : o.period = none)
    (hc : o.chunk = none)
    {ids : List Nat} (hl : s.lookup tag = some ids) {axes : List (List F)} {cells : List Nat} {nc : Nat}
    {C : List (F × NArr F)} (hC : C ≠ []) (hn : (C.map Prod.fst).Nodup)
    (hL : List.Forall₂ (fun e c => timeOf e.2 = some c.1 ∧ c.1 ≠ 0 ∧ Rectilinear e.2 axes c.2 ∧ c.2.shape = cells ++ [nc])
      (activeOf s ids) C) (h10 : 10 ≤ nc) (h2 : 2 ≤ C.length) (hone : 1 ∈ cells) {T : Tag} (hT' : T ≠ []) (label : List Char) :
    ∃ sC e, collectCmd timeOf frameOf argsort fmod o s = .ok sC ∧
      fluidCmd (tenVar sqrt gamma "pressureTensor") (some tag) (some T) label sC = .error e := by
  have hi := Space.reachable_inv hs
  obtain ⟨c0, hc0⟩ := List.exists_mem_of_ne_nil C hC
  obtain ⟨e0, -, -, -, hr0, hsh0⟩ := forall₂_mem hL c0 hc0
  have hlen : cells.length = axes.length := by
    have := hr0.shape
    rw [hsh0] at this
    simpa using this
  have hax : ∀ g ∈ axes.map (NArr.ofList (α := F)), g.data ≠ [] := by
    intro g hg
    obtain ⟨y, hy, rfl⟩ := List.mem_map.1 hg
    exact hr0.nodes y hy
  obtain ⟨sC, order, out, V, c1, c2, c3, c4, c5, c6, c7, c8, c9, c10, c11, c12, c13⟩ := collect_frames (frameOf := frameOf) ha
    fmod hi h0 hcm hu hT hsd hp hc hl (G := axes) (sh := cells ++ [nc]) (by simp [hlen]) hC hn
    (hL.imp fun e c h => ⟨⟨h.1, h.2.2.1.values, h.2.2.1.wf, h.2.2.2, h.2.2.1.grid, by simp [hlen],
      by simpa using hr0.nonempty, hax⟩, h.2.1⟩)
  have hf : IsField V (C.length :: cells) nc fun i j => entry V (i ++ [j]) := by
    refine ⟨c10, c12, fun i hi j hj => ?_⟩
    have hin : inRange V.shape (i ++ [j]) = true := by rw [c12, ← List.cons_append]; exact inRange_snoc_iff.2 ⟨hi, hj⟩
    obtain ⟨x, hx⟩ := Option.isSome_iff_exists.1 (NArr.get?_isSome c10 hin)
    simp [entry, hx]
  have hnl : ¬ LeadingOnes (C.length :: cells) := by
    rintro ⟨k, rest, h1, h2'⟩
    cases k with
    | zero =>
      rw [List.replicate_zero, List.nil_append] at h1
      exact h2' (by rw [← h1]; exact List.mem_cons_of_mem _ hone)
    | succ k =>
      rw [List.replicate_succ, List.cons_append] at h1
      have := (List.cons.inj h1).1
      omega
  have htC := Space.tagsOf_one sC hcm h0
  obtain ⟨e, he⟩ := pushCmd_fails (f := ofValues fun x => Tools.getPij x) c2 (use := some tag) (by rw [htC]; simpa using c4)
    hT' (by rw [htC]; simp) label (by rw [htC, c3]; simp) c5 (err := .valueError)
    (by simp only [ofValues, c8, c9, C41_pij_fails hf h10 hnl, bind, Except.bind])
  refine ⟨sC, e, c1, ?_⟩
  rw [show tenVar sqrt gamma "pressureTensor" = some fun x => Tools.getPij x by simp [tenVar], fluidCmd_some]
  exact he

end

namespace CollectFluidEx
open CollectEx (tag timeOf frameOf argsort argsort_ok)

/-- A frame with some values. -/
def frame (time : String) (axis : List ℚ) (v : NArr ℚ) : GData ℚ where
  grid := some [NArr.ofList axis]
  values := some v
  ctx := { cells := some v.shape.dropLast, numComps := v.shape.getLast?, other := [("time", time)] }

/-- Two frames, at the times 3 and 1. -/
def store (axis : List ℚ) (a b : NArr ℚ) : Space ℚ := (({} : Space ℚ).addNew (frame "3" axis a)).addNew (frame "1" axis b)

theorem rect (time : String) {axis : List ℚ} (ha : axis ≠ []) {v : NArr ℚ} (hw : v.WF) {n nc : Nat} (hv : v.shape = [n, nc]) :
    Rectilinear (frame time axis v) [axis] v :=
  ⟨rfl, rfl, hw, by simp [frame, GData.numDims, GData.numCells, hv], by simp [hv], by simp, by simpa using ha⟩

/-- `magsq` and `collect`, or `collect` and `magsq`. -/
example : ∃ sF sFC sC sCF, magsqCmd (some tag) none [] (store [0, 1, 2] ⟨[2, 3], [1, 2, 2, 3, 4, 0]⟩ ⟨[2, 3], [0, 1, 0, 5, 5, 7]⟩) = .ok sF ∧
    collectCmd timeOf frameOf argsort (fun a _ => a) { use := some tag, offset := 0 } sF = .ok sFC ∧
    collectCmd timeOf frameOf argsort (fun a _ => a) { use := some tag, offset := 0 }
      (store [0, 1, 2] ⟨[2, 3], [1, 2, 2, 3, 4, 0]⟩ ⟨[2, 3], [0, 1, 0, 5, 5, 7]⟩) = .ok sC ∧
    magsqCmd (some tag) none [] sC = .ok sCF ∧ SameData 2 1 sFC sCF :=
  C167_magsq argsort_ok _ ((Reachable.empty.add _).add _) (by decide) (by decide) rfl rfl rfl rfl rfl
    (fun d r h => by simp [timeOf, h]) (ids := [0, 1]) rfl (axes := [[0, 1, 2]]) (cells := [2]) (nc := 3)
    (C := [(3, ⟨[2, 3], [1, 2, 2, 3, 4, 0]⟩), (1, ⟨[2, 3], [0, 1, 0, 5, 5, 7]⟩)]) (by simp) (by simp) (by decide)
    (.cons ⟨rfl, by norm_num, rect _ (by simp) rfl rfl, rfl⟩ (.cons ⟨rfl, by norm_num, rect _ (by simp) rfl rfl, rfl⟩ .nil)) []

/-- Two gases of two cells: densities 1 and 2 (plus 4 in the second one), velocity (3, 0, 0), pressure 4. -/
def G (late : Bool) : Gas ℚ :=
  ⟨[2], 5, fun i => (i[0]?.getD 0 + if late then 4 else 0 : Nat) + 1, fun _ c => if c = 0 then 3 else 0, fun _ => 4, fun _ _ => 0,
    fun _ _ => 0⟩

def values (late : Bool) : NArr ℚ := NArr.ofFn [2, 5] fun i =>
  some (fiveMoment (5 / 3) ((G late).rho i.dropLast) ((G late).u i.dropLast) ((G late).p i.dropLast) (i.getLast?.getD 0))

theorem values_field (late : Bool) : IsField (values late) [2] 5 fun i =>
    fiveMoment (5 / 3) ((G late).rho i) ((G late).u i) ((G late).p i) :=
  isField_of_ofFn (cells := [2]) (m := 5) fun i hi c hc => by simp

theorem isEuler (time : String) (late : Bool) : IsEuler (5 / 3) (frame time [0, 1, 2] (values late)) (G late) := by
  refine ⟨⟨le_refl 5, fun i _ => ?_⟩, _, rfl, le_refl 1, by simp [NArr.ofList], _, rfl, values_field late⟩
  show ((i[0]?.getD 0 + if late then 4 else 0 : Nat) : ℚ) + 1 ≠ 0
  positivity

/-- `euler -v pressure` and `collect`, or `collect` and `euler -v pressure`. -/
example : ∃ sF sFC sC sCF,
    fluidCmd (eulerVar (fun x => x) (5 / 3) "pressure") (some tag) none [] (store [0, 1, 2] (values true) (values false)) = .ok sF ∧
    collectCmd timeOf frameOf argsort (fun a _ => a) { use := some tag, offset := 0 } sF = .ok sFC ∧
    collectCmd timeOf frameOf argsort (fun a _ => a) { use := some tag, offset := 0 }
      (store [0, 1, 2] (values true) (values false)) = .ok sC ∧
    fluidCmd (eulerVar (fun x => x) (5 / 3) "pressure") (some tag) none [] sC = .ok sCF ∧ SameData 2 1 sFC sCF :=
  C167_euler (by norm_num) (by simp) argsort_ok _ ((Reachable.empty.add _).add _) (by decide) (by decide) rfl rfl rfl rfl rfl
    (fun d r h => by simp [timeOf, h]) (ids := [0, 1]) rfl (axes := [[0, 1, 2]]) (cells := [2]) (nc := 5)
    (C := [(3, values true), (1, values false)]) (by simp) (by simp)
    (.cons ⟨rfl, by norm_num, rect _ (by simp) (values_field true).wf rfl, _, isEuler _ _, rfl, rfl⟩
      (.cons ⟨rfl, by norm_num, rect _ (by simp) (values_field false).wf rfl, _, isEuler _ _, rfl, rfl⟩ .nil)) []

/-- Two frames of one cell with ten moments: the pressure tensor of the collected frames raises an error. -/
example : ∃ sC e, collectCmd timeOf frameOf argsort (fun a _ => a) { use := some tag, offset := 0 }
      (store [0, 1] ⟨[1, 10], [1, 0, 0, 0, 1, 0, 0, 1, 0, 1]⟩ ⟨[1, 10], [2, 0, 0, 0, 1, 0, 0, 1, 0, 1]⟩) = .ok sC ∧
    fluidCmd (tenVar (fun x => x) (5 / 3) "pressureTensor") (some tag) (some "p".toList) [] sC = .error e :=
  C167_tensor_fails argsort_ok _ ((Reachable.empty.add _).add _) (by decide) (by decide) rfl rfl rfl rfl rfl
    (ids := [0, 1]) rfl (axes := [[0, 1]]) (cells := [1]) (nc := 10)
    (C := [(3, ⟨[1, 10], [1, 0, 0, 0, 1, 0, 0, 1, 0, 1]⟩), (1, ⟨[1, 10], [2, 0, 0, 0, 1, 0, 0, 1, 0, 1]⟩)]) (by simp) (by simp)
    (.cons ⟨rfl, by norm_num, rect _ (by simp) rfl rfl, rfl⟩ (.cons ⟨rfl, by norm_num, rect _ (by simp) rfl rfl, rfl⟩ .nil))
    (le_refl 10) (le_refl 2) (by simp) (by decide) []

end CollectFluidEx
end Pgkyl
