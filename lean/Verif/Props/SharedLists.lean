import Verif.Spec.SharedLists
import Mathlib.Data.List.Induction
import Mathlib.Data.List.Basic
import Mathlib.Tactic.Common
import Mathlib.Data.Rat.Defs
import Mathlib.Algebra.Ring.Rat
/-! # C152: datasets do not depend on one another -/

namespace Pgkyl
open Spec Lists

variable {F : Type} [Add F] [Mul F] [Div F] [IntCast F]

theorem run_snoc {ops : List (Op F)} {op : Op F} {h : Heap F} (hr : Heap.run (ops ++ [op]) = .ok h) :
    ∃ h0, Heap.run ops = .ok h0 ∧ h0.step op = .ok h := by
  simp only [Heap.run, List.foldlM_append, List.foldlM_cons, List.foldlM_nil, bind, Except.bind, pure, Except.pure] at *
  split at hr
  · cases hr
  · rename_i h0 h1
    refine ⟨h0, h1, ?_⟩
    split at hr
    · cases hr
    · rename_i h2 h3
      rw [h3, Except.ok.inj hr]

/-- The addresses are the families, and every address exists. -/
structure ListsInv (h : Heap F) (s : Nat × List Nat) : Prop where
  count : h.lists.length = s.1
  addr : h.data.map Dat.grid = s.2
  valid : ∀ d ∈ h.data, d.grid < h.lists.length

omit [Add F] [Mul F] [Div F] [IntCast F] in
theorem ListsInv.get {h : Heap F} {s : Nat × List Nat} (hi : ListsInv h s) {k : Nat} {d : Dat F} (hd : h.data[k]? = some d) :
    s.2[k]? = some d.grid := by
  rw [← hi.addr, List.getElem?_map, hd]; rfl

theorem listsInv_step {h h' : Heap F} {s : Nat × List Nat} (hi : ListsInv h s) {op : Op F} (hs : h.step op = .ok h') :
    ListsInv h' (family s op) := by
  have hset : ∀ (ls : List (List (NArr F))) (src : Nat) (v : NArr F) (g : List (NArr F)), ls.length = h.lists.length →
      ListsInv ({ lists := ls, data := h.data } : Heap F) s → ListsInv (({ lists := ls, data := h.data } : Heap F).renew src g v)
        (s.1 + 1, s.2.set src s.1) := by
    intro ls src v g hl hi'
    refine ⟨by simp [Heap.renew, ← hi'.count], ?_, ?_⟩
    · simp only [Heap.renew, List.map_set, hi'.addr]
      rw [← hi'.count]
    · intro d hd
      simp only [Heap.renew, List.length_append, List.length_cons, List.length_nil] at *
      rcases List.mem_or_eq_of_mem_set hd with h1 | rfl
      · have := hi'.valid d h1
        simp only at this
        omega
      · simp
  have hadd : ∀ (ls : List (List (NArr F))) (v : NArr F) (g : List (NArr F)), ls.length = h.lists.length →
      ListsInv ({ lists := ls, data := h.data } : Heap F) s → ListsInv (({ lists := ls, data := h.data } : Heap F).add g v)
        (s.1 + 1, s.2 ++ [s.1]) := by
    intro ls v g hl hi'
    refine ⟨by simp [Heap.add, ← hi'.count], ?_, ?_⟩
    · simp only [Heap.add, List.map_append, hi'.addr]
      rw [← hi'.count]; rfl
    · intro d hd
      simp only [Heap.add, List.length_append, List.length_cons, List.length_nil, List.mem_append, List.mem_singleton] at *
      rcases hd with h1 | rfl
      · have := hi'.valid d h1
        simp only at this
        omega
      · simp
  have hlists : ∀ ls : List (List (NArr F)), ls.length = h.lists.length →
      ListsInv ({ lists := ls, data := h.data } : Heap F) s := by
    intro ls hl
    exact ⟨hl.trans hi.count, hi.addr, fun d hd => by simp only [hl]; exact hi.valid d hd⟩
  cases op with
  | make g v =>
    cases hs
    exact hadd _ v g rfl (hlists _ rfl)
  | share src v =>
    simp only [Heap.step] at hs
    split at hs
    · cases hs
    · rename_i d hd
      cases hs
      refine ⟨hi.count, ?_, ?_⟩
      · simp only [family, List.map_append, List.map_cons, List.map_nil, hi.get hd, Option.getD_some, hi.addr]
      · intro e he
        rcases List.mem_append.mp he with h1 | h1
        · exact hi.valid e h1
        · rw [List.mem_singleton.mp h1]
          exact hi.valid d (List.mem_of_getElem? hd)
  | replace src g v =>
    simp only [Heap.step] at hs
    split at hs
    · cases hs
    · cases hs
      exact hset _ src v g rfl (hlists _ rfl)
  | update src v =>
    simp only [Heap.step] at hs
    split at hs
    · cases hs
    · rename_i d hd
      cases hs
      refine ⟨hi.count, ?_, ?_⟩
      · simp only [family, List.map_set, hi.addr]
        have hg := hi.get hd
        apply List.ext_getElem?
        intro i
        rw [List.getElem?_set]
        by_cases hik : src = i
        · subst hik
          rw [if_pos rfl, if_pos (List.getElem?_eq_some_iff.mp hg).1, hg]
        · rw [if_neg hik]
      · intro e he
        rcases List.mem_or_eq_of_mem_set he with h1 | rfl
        · exact hi.valid e h1
        · exact hi.valid d (List.mem_of_getElem? hd)
  | fft src new g v =>
    simp only [Heap.step] at hs
    split at hs
    · cases hs
    · rename_i d hd
      have hl := hlists (h.lists.modify d.grid Heap.pop) (by simp)
      cases new with
      | true => cases hs; exact hadd _ v g (by simp) hl
      | false => cases hs; exact hset _ src v g (by simp) hl
  | text src =>
    simp only [Heap.step] at hs
    split at hs
    · cases hs
    · split at hs
      · cases hs
      · split at hs
        · cases hs
          exact hlists _ (by simp)
        · cases hs

theorem listsInv_run : ∀ {ops : List (Op F)} {h : Heap F}, Heap.run ops = .ok h → ListsInv h (ops.foldl family (0, [])) := by
  intro ops
  induction ops using List.reverseRecOn with
  | nil => intro h hr; cases hr; exact ⟨rfl, rfl, by simp⟩
  | append_singleton ops op ih =>
    intro h hr
    obtain ⟨h0, h1, h2⟩ := run_snoc hr
    rw [List.foldl_append]
    exact listsInv_step (ih h1) h2

omit [Add F] [Mul F] [Div F] [IntCast F] in
theorem gridOf_append {h : Heap F} {d : Dat F} (hv : d.grid < h.lists.length) (g : List (NArr F)) (ds : List (Dat F)) :
    ({ lists := h.lists ++ [g], data := ds } : Heap F).gridOf d = h.gridOf d := by
  simp only [Heap.gridOf]
  rw [List.getElem?_append_left hv]

omit [Add F] [Mul F] [Div F] [IntCast F] in
theorem gridOf_last {h : Heap F} (v : NArr F) (g : List (NArr F)) (ds : List (Dat F)) :
    ({ lists := h.lists ++ [g], data := ds } : Heap F).gridOf ⟨h.lists.length, v⟩ = g := by
  simp [Heap.gridOf]

omit [Add F] [Mul F] [Div F] [IntCast F] in
theorem found_add {h : Heap F} (hv : ∀ d ∈ h.data, d.grid < h.lists.length) (g : List (NArr F)) (v : NArr F) :
    found (h.add g v) = found h ++ [(g, v)] := by
  unfold found Heap.add
  simp only [List.map_append, List.map_cons, List.map_nil]
  congr 1
  · exact List.map_congr_left fun d hd => by rw [gridOf_append (hv d hd)]
  · rw [gridOf_last]

omit [Add F] [Mul F] [Div F] [IntCast F] in
theorem found_renew {h : Heap F} (hv : ∀ d ∈ h.data, d.grid < h.lists.length) (src : Nat) (g : List (NArr F)) (v : NArr F) :
    found (h.renew src g v) = (found h).set src (g, v) := by
  unfold found Heap.renew
  simp only [List.map_set]
  rw [gridOf_last]
  congr 1
  exact List.map_congr_left fun d hd => by rw [gridOf_append (hv d hd)]

omit [Add F] [Mul F] [Div F] [IntCast F] in
theorem found_get {h : Heap F} {k : Nat} {d : Dat F} (hd : h.data[k]? = some d) :
    (found h)[k]? = some (h.gridOf d, d.values) := by
  simp [found, hd]

omit [Add F] [Mul F] [Div F] [IntCast F] in
theorem modify_pop {h : Heap F} {k : Nat} (hg : ∀ a ∈ (h.lists[k]?).getD [], 2 < a.data.length) :
    h.lists.modify k Heap.pop = h.lists := by
  apply List.ext_getElem?
  intro i
  rw [List.getElem?_modify]
  by_cases hik : k = i
  · subst hik
    simp only [if_true]
    cases h1 : h.lists[k]? with
    | none => rfl
    | some l =>
      rw [h1] at hg
      simp only [Option.getD_some] at hg
      simp only [Option.map_eq_map, Option.map_some, Heap.pop, Option.some.injEq, List.filter_eq_self]
      exact fun a ha => decide_eq_true (hg a ha)
  · simp [hik]

/-- C152 as far as it holds: after any session without text files in which fft is applied to data without collapsed directions,
every dataset is what was made of it, although grids are shared.  Missing and false: see `C152_text_fails` and
`C152_fft_fails`. -/
theorem C152_independent_partial : ∀ {ops : List (Op F)} {h : Heap F}, Heap.run ops = .ok h → AllGentle ops →
    found h = expectedRun ops := by
  intro ops
  induction ops using List.reverseRecOn with
  | nil => intro h hr _; cases hr; rfl
  | append_singleton ops op ih =>
    intro h' hr hg
    obtain ⟨h, h1, h2⟩ := run_snoc hr
    have hi := listsInv_run h1
    have ih := ih h1 fun pre o post e => hg pre o (post ++ [op]) (by rw [e]; simp)
    have hgop := hg ops op [] rfl
    rw [expectedRun, List.foldl_append, List.foldl_cons, List.foldl_nil, ← expectedRun]
    rw [← ih] at hgop ⊢
    have hv := hi.valid
    cases op with
    | make g v => cases h2; exact found_add hv g v
    | share src v =>
      simp only [Heap.step] at h2
      split at h2
      · cases h2
      · rename_i d hd
        cases h2
        simp only [expected, found_get hd, Option.map_some, Option.getD_some]
        simp only [found, List.map_append]
        rfl
    | replace src g v =>
      simp only [Heap.step] at h2
      split at h2
      · cases h2
      · cases h2; exact found_renew hv src g v
    | update src v =>
      simp only [Heap.step] at h2
      split at h2
      · cases h2
      · rename_i d hd
        cases h2
        simp only [expected]
        apply List.ext_getElem?
        intro i
        rw [List.getElem?_modify]
        by_cases hik : src = i
        · subst hik
          rw [found_get hd, found_get (d := ⟨d.grid, v⟩) (by
            rw [List.getElem?_set_self (List.getElem?_eq_some_iff.mp hd).1])]
          simp [Heap.gridOf]
        · simp [found, hik, Heap.gridOf]
    | fft src new g v =>
      simp only [Heap.step] at h2
      split at h2
      · cases h2
      · rename_i d hd
        have hm : h.lists.modify d.grid Heap.pop = h.lists := modify_pop fun a ha => hgop _ (found_get hd) a ha
        rw [hm] at h2
        cases new with
        | true => cases h2; exact found_add hv g v
        | false => cases h2; exact found_renew hv src g v
    | text src => exact absurd hgop id

theorem step_other {ops : List (Op F)} {op : Op F} {h h' : Heap F} (hr : Heap.run ops = .ok h) (hs : h.step op = .ok h')
    {k : Nat} (hk : k < h.data.length) (h1 : replaced op ≠ some k)
    (h2 : ∀ src, touched op = some src → (families ops)[src]? ≠ (families ops)[k]?) : (found h')[k]? = (found h)[k]? := by
  have hi := listsInv_run hr
  have hv := hi.valid
  have hkf : k < (found h).length := by simpa [found] using hk
  obtain ⟨e, he⟩ : ∃ e, h.data[k]? = some e := ⟨_, List.getElem?_eq_getElem hk⟩
  -- changing another list
  have hother : ∀ (d : Dat F) (src : Nat) (ls : List (List (NArr F))), h.data[src]? = some d →
      (families ops)[src]? ≠ (families ops)[k]? → (∀ i, i ≠ d.grid → ls[i]? = h.lists[i]?) →
      (found ({ lists := ls, data := h.data } : Heap F))[k]? = (found h)[k]? := by
    intro d src ls hd hne hls
    rw [found_get (h := { lists := ls, data := h.data }) he, found_get he]
    have hn : e.grid ≠ d.grid := by
      intro heq
      apply hne
      rw [families, hi.get hd, hi.get he, heq]
    simp only [Heap.gridOf, hls _ hn]
  cases op with
  | make g v => cases hs; rw [found_add hv, List.getElem?_append_left hkf]
  | share src v =>
    simp only [Heap.step] at hs
    split at hs
    · cases hs
    · cases hs
      simp only [found, List.map_append]
      rw [List.getElem?_append_left (by simpa using hk)]
      rfl
  | replace src g v =>
    simp only [Heap.step] at hs
    split at hs
    · cases hs
    · cases hs
      rw [found_renew hv, List.getElem?_set_ne (by intro e; exact h1 (by rw [e]; rfl))]
  | update src v =>
    simp only [Heap.step] at hs
    split at hs
    · cases hs
    · cases hs
      have hne : src ≠ k := by intro e; exact h1 (by rw [e]; rfl)
      simp [found, hne, Heap.gridOf]
  | fft src new g v =>
    simp only [Heap.step] at hs
    split at hs
    · cases hs
    · rename_i d hd
      have hv' : ∀ d' ∈ ({ lists := h.lists.modify d.grid Heap.pop, data := h.data } : Heap F).data,
          d'.grid < ({ lists := h.lists.modify d.grid Heap.pop, data := h.data } : Heap F).lists.length := by
        intro d' hd'
        simp only [List.length_modify]
        exact hv d' hd'
      have ho := hother d src (h.lists.modify d.grid Heap.pop) hd (h2 src rfl) (by
        intro i hi'
        rw [List.getElem?_modify]
        have hi'' : d.grid ≠ i := fun e => hi' e.symm
        simp [hi''])
      cases new with
      | true =>
        cases hs
        rw [found_add hv', List.getElem?_append_left (by simpa [found] using hk), ho]
      | false =>
        cases hs
        rw [found_renew hv', List.getElem?_set_ne (by intro e; exact h1 (by rw [e]; rfl)), ho]
  | text src =>
    simp only [Heap.step] at hs
    split at hs
    · cases hs
    · rename_i d hd
      split at hs
      · cases hs
      · split at hs
        · cases hs
          exact hother d src _ hd (h2 src rfl) (by
            intro i hi'
            rw [List.getElem?_set_ne (fun e => hi' e.symm)])
        · cases hs

/-- C152 for one more command after any session: a dataset that the command does not replace stays as it is, unless the command
is fft or a text file and the dataset belongs to the family of the one it is applied to. -/
theorem C152_other_families {ops : List (Op F)} {op : Op F} {h h' : Heap F} (hr : Heap.run ops = .ok h)
    (hs : Heap.run (ops ++ [op]) = .ok h') {k : Nat} (hk : k < h.data.length) (h1 : replaced op ≠ some k)
    (h2 : ∀ src, touched op = some src → (families ops)[src]? ≠ (families ops)[k]?) : (found h')[k]? = (found h)[k]? := by
  obtain ⟨h0, hr', hs'⟩ := run_snoc hs
  rw [hr] at hr'
  cases hr'
  exact step_other hr hs' hk h1 h2

/-- C152 fails for text files: writing one dataset replaces the coordinates of every dataset of its family by the centres of the
cells, while the values stay. -/
theorem C152_text_fails {ops : List (Op F)} {h h' : Heap F} {src k : Nat} (hr : Heap.run ops = .ok h)
    (hs : Heap.run (ops ++ [.text src]) = .ok h') (hf : (families ops)[k]? = (families ops)[src]?)
    {d s : Owned F} (hd : (found h)[k]? = some d) (hsv : (found h)[src]? = some s) {n : Nat}
    (hn : s.2.shape.length = n + 1) : ∃ g, centreAxes n d.1 = .ok g ∧ (found h')[k]? = some (g, d.2) := by
  obtain ⟨h0, hr', hs'⟩ := run_snoc hs
  rw [hr] at hr'
  cases hr'
  have hi := listsInv_run hr
  simp only [found, List.getElem?_map, Option.map_eq_some_iff] at hd hsv
  obtain ⟨e, he, rfl⟩ := hd
  obtain ⟨s, hs1, rfl⟩ := hsv
  simp only [Heap.step, hs1] at hs'
  have hsame : e.grid = s.grid := by
    rw [families, hi.get he, hi.get hs1] at hf
    exact Option.some.inj hf
  have hlen : s.values.shape.length - 1 = n := by simp only at hn; rw [hn]; rfl
  have hgr : h.gridOf s = h.gridOf e := by simp only [Heap.gridOf, hsame]
  rw [hlen, hgr] at hs'
  split at hs'
  · cases hs'
  · rename_i g hg
    split at hs'
    · cases hs'
      refine ⟨g, hg, ?_⟩
      rw [found_get (h := { h with lists := h.lists.set s.grid g }) he]
      simp only [Heap.gridOf, hsame]
      rw [List.getElem?_set_self (hi.valid s (List.mem_of_getElem? hs1))]
      rfl
    · cases hs'

/-- C152 fails for fft: the collapsed directions disappear from the grids of all datasets of the family, while the values stay. -/
theorem C152_fft_fails {ops : List (Op F)} {h h' : Heap F} {src k : Nat} {new : Bool} {g : List (NArr F)} {v : NArr F}
    (hr : Heap.run ops = .ok h) (hs : Heap.run (ops ++ [.fft src new g v]) = .ok h')
    (hf : (families ops)[k]? = (families ops)[src]?) (hne : new = true ∨ k ≠ src) {d : Owned F} (hd : (found h)[k]? = some d) :
    (found h')[k]? = some (d.1.filter fun a => decide (2 < a.data.length), d.2) := by
  obtain ⟨h0, hr', hs'⟩ := run_snoc hs
  rw [hr] at hr'
  cases hr'
  have hi := listsInv_run hr
  simp only [found, List.getElem?_map, Option.map_eq_some_iff] at hd
  obtain ⟨e, he, rfl⟩ := hd
  simp only [Heap.step] at hs'
  split at hs'
  · cases hs'
  rename_i s hs1
  have hsame : e.grid = s.grid := by
    rw [families, hi.get he, hi.get hs1] at hf
    exact Option.some.inj hf
  have hv' : ∀ d' ∈ ({ lists := h.lists.modify s.grid Heap.pop, data := h.data } : Heap F).data,
      d'.grid < ({ lists := h.lists.modify s.grid Heap.pop, data := h.data } : Heap F).lists.length := by
    intro d' hd'
    simp only [List.length_modify]
    exact hi.valid d' hd'
  have hk : k < h.data.length := (List.getElem?_eq_some_iff.mp he).1
  have hmid : (found ({ lists := h.lists.modify s.grid Heap.pop, data := h.data } : Heap F))[k]? =
      some ((h.gridOf e).filter fun a => decide (2 < a.data.length), e.values) := by
    rw [found_get (h := { lists := h.lists.modify s.grid Heap.pop, data := h.data }) he]
    simp only [Heap.gridOf, hsame, List.getElem?_modify, if_pos]
    have hlt := hi.valid s (List.mem_of_getElem? hs1)
    rw [List.getElem?_eq_getElem hlt]
    rfl
  cases new with
  | true =>
    cases hs'
    rw [found_add hv', List.getElem?_append_left (by simpa [found] using hk), hmid]
  | false =>
    cases hs'
    rw [found_renew hv', List.getElem?_set_ne (hne.resolve_left (by simp)).symm, hmid]

/-! Non-vacuity: a file, a dataset that shares its grid, one with a grid of its own; then a text file of the first. -/
namespace SharedListsEx

def session : List (Op ℚ) :=
  [.make [NArr.ofList [0, 1, 2, 4]] ⟨[3, 1], [5, 6, 7]⟩, .share 0 ⟨[3, 1], [1, 1, 1]⟩,
   .make [NArr.ofList [0, 1, 2, 4]] ⟨[3, 1], [5, 6, 7]⟩, .update 2 ⟨[3, 1], [0, 0, 0]⟩]

example : families session = [0, 0, 1] := by decide +kernel
example : ∃ h, Heap.run session = .ok h := ⟨_, rfl⟩
example : ∃ h, Heap.run (session ++ [.text 0]) = .ok h ∧ found h =
    [([NArr.ofList [1/2, 3/2, 3]], ⟨[3, 1], [5, 6, 7]⟩), ([NArr.ofList [1/2, 3/2, 3]], ⟨[3, 1], [1, 1, 1]⟩),
     ([NArr.ofList [0, 1, 2, 4]], ⟨[3, 1], [0, 0, 0]⟩)] := by
  refine ⟨_, rfl, ?_⟩
  decide +kernel
example : AllGentle session := by
  intro pre op post h
  match pre, h with
  | [], h => simp [session] at h; simp [← h.1, Gentle]
  | [_], h => simp [session] at h; simp [← h.2.1, Gentle]
  | [_, _], h => simp [session] at h; simp [← h.2.2.1, Gentle]
  | [_, _, _], h => simp [session] at h; simp [← h.2.2.2.1, Gentle]
  | _ :: _ :: _ :: _ :: pre, h => simp [session] at h

end SharedListsEx
end Pgkyl
