import Verif.Lemmas.EvNumber
import Verif.Props.EvDiff
import Verif.Props.Integrate
import Verif.Props.EvOps
/-!
# C30, C31, C98-C102 as results of the `ev` command

`A` is any expression (Spec/Ev) on data; the theorems give the datasets that `ev` adds to the store.
-/

namespace Pgkyl
open Spec Ev Integ

section
variable {F : Type} [_root_.Field F] [LinearOrder F]
variable {lib : Lib F} {s : Space F} {all : Bool} {tags : List Tag}

omit [_root_.Field F] in
theorem cellGrid_nonempty {axes : List (List F)} {cells : List Nat} (h : CellGrid axes cells) : ∀ x ∈ axes, x ≠ [] := by
  intro x hx e
  obtain ⟨d, hd⟩ := List.getElem?_of_mem hx
  have hl := (List.getElem?_eq_some_iff.1 hd).1
  have := (h.2 d x _ hd (List.getElem?_eq_getElem (by rw [← h.1]; exact hl))).1
  rw [e] at this; simp at this

omit [_root_.Field F] [LinearOrder F] in
theorem fits_nonempty {axes : List (List F)} {sh : List Nat} (h : FitsAll axes sh) : ∀ x ∈ axes, x ≠ [] := by
  intro x hx e
  obtain ⟨d, hd⟩ := List.getElem?_of_mem hx
  have hl := (List.getElem?_eq_some_iff.1 hd).1
  rcases h.2 d x _ hd (List.getElem?_eq_getElem (by have := h.1; omega)) with h1 | ⟨h1, h2⟩
  · rw [e] at h1; simp at h1
  · rw [e] at h1; simp only [List.length_nil] at h1; omega

/-- Fields are added with their grids. -/
theorem ev_field {ts : List (List Char)} {n : Nat} (hr : EvReady lib s all tags) {axes : Nat → List (List F)}
    {cells : List Nat} {m : Nat} (hg : ∀ k, CellGrid (axes k) cells) {Q : Nat → (List Nat → Nat → F) → Prop}
    (hp : Pushes lib s all tags ts n true fun k i => (fun k i => ∃ G, FieldItem (axes k) cells m G i ∧ Q k G) (min k (n - 1)) i)
    (T : Tag) (hT : T ≠ []) (label : Option (List Char)) :
    ∃ s', ev lib (joinWith ' ' ts) (some T) label all s = .ok s' ∧
      AddsUnder s s' T n fun k d => ∃ G, HasField d (axes k) cells m G ∧ Q k G := by
  refine ev_of_op hr (P := fun k i => ∃ G, FieldItem (axes k) cells m G i ∧ Q k G) hp _ (fun k i ⟨G, hG, hQ⟩ d => ?_) T hT label
  obtain ⟨d', h1, h2, h3⟩ := push_field hG (hg k).1 (cellGrid_nonempty (hg k)) d
  exact ⟨d', h1, ⟨G, h2, hQ⟩, h3⟩

/-- An operator with one operand that turns fields into fields on the same grid. -/
theorem ev_field1 {ts : List (List Char)} {n : Nat} (hr : EvReady lib s all tags) {axes : Nat → List (List F)}
    {cells : List Nat} {m : Nat} (hg : ∀ k, CellGrid (axes k) cells) {P : Nat → Item F → Prop}
    (hp : Pushes lib s all tags ts n true P) {op : List Char} {f : EvCmd.Func F} (hop : cmds lib.fn op = some (1, f))
    {Q : Nat → (List Nat → Nat → F) → Prop}
    (hR : ∀ k i, P k i → ∃ w G, f [i.grid] [i.val] = .ok (some ((axes k).map NArr.ofList), .arr w) ∧ IsField w cells m G ∧ Q k G)
    (T : Tag) (hT : T ≠ []) (label : Option (List Char)) :
    ∃ s', ev lib (joinWith ' ' (ts ++ [op])) (some T) label all s = .ok s' ∧
      AddsUnder s s' T n fun k d => ∃ G, HasField d (axes k) cells m G ∧ Q k G := by
  refine ev_field hr hg (pushes_op1 hr hop hp (R := fun k i => ∃ G, FieldItem (axes k) cells m G i ∧ Q k G)
    fun k i hi => ?_) T hT label
  obtain ⟨w, G, e1, e2, e3⟩ := hR k i hi
  exact ⟨_, _, e1, fun c => ⟨G, ⟨rfl, w, rfl, e2⟩, e3⟩⟩

/-- The same with a literal. -/
theorem ev_field2 {ts : List (List Char)} {n : Nat} (hr : EvReady lib s all tags) {axes : Nat → List (List F)}
    {cells : List Nat} {m : Nat} (hg : ∀ k, CellGrid (axes k) cells) {P : Nat → Item F → Prop}
    (hp : Pushes lib s all tags ts n true P) {op : List Char} {f : EvCmd.Func F} (hop : cmds lib.fn op = some (2, f))
    {t : List Char} {v : EvVal F} (ht : Literal lib tags t v) {Q : Nat → (List Nat → Nat → F) → Prop}
    (hR : ∀ k i, P k i → ∃ w G, f [none, i.grid] [v, i.val] = .ok (some ((axes k).map NArr.ofList), .arr w) ∧
      IsField w cells m G ∧ Q k G)
    (T : Tag) (hT : T ≠ []) (label : Option (List Char)) :
    ∃ s', ev lib (joinWith ' ' (ts ++ [t, op])) (some T) label all s = .ok s' ∧
      AddsUnder s s' T n fun k d => ∃ G, HasField d (axes k) cells m G ∧ Q k G := by
  refine ev_field hr hg (pushes_op2 hr hop hp ht (R := fun k i => ∃ G, FieldItem (axes k) cells m G i ∧ Q k G)
    fun k i hi => ?_) T hT label
  obtain ⟨w, G, e1, e2, e3⟩ := hR k i hi
  exact ⟨_, _, e1, fun c => ⟨G, ⟨rfl, w, rfl, e2⟩, e3⟩⟩

section
variable [IsStrictOrderedRing F] {A : Expr F} {cells : List Nat} {m : Nat} {axes : Nat → List (List F)}

/-- C98: `A grad` adds, for every dataset of `A`, the partial derivatives of every component along every axis. -/
theorem C98_grad_command (hr : EvReady lib s all tags) (hA : OperandOK lib s all tags (A, cells ++ [m]))
    (hd : A.hasData = true) (hG : OnGrid s all A axes) (hg : ∀ k, CellGrid (axes k) cells)
    (T : Tag) (hT : T ≠ []) (label : Option (List Char)) :
    ∃ s', ev lib (joinWith ' ' (A.tokens ++ ["grad".toList])) (some T) label all s = .ok s' ∧
      AddsUnder s s' T A.count fun k d => ∃ G, HasField d (axes k) cells (m * cells.length) G ∧
        ∀ i, inRange cells i = true → ∀ a < cells.length, ∀ c < m,
          IsPartial (axes k) cells (fun i => A.num lib.fn k (i ++ [c])) a i (G i (a * m + c)) := by
  refine ev_field1 hr hg (pushes_field hr add_comm hA hd hG) (f := EvCmd.grad) rfl (fun k i ⟨h1, a, h2, h3⟩ => ?_) T hT label
  rw [h1, h2]
  exact C98_grad (hg k) h3

/-- C98: `A axes grad2` does the same for the named axes. -/
theorem C98_grad2_command (hr : EvReady lib s all tags) (hA : OperandOK lib s all tags (A, cells ++ [m]))
    (hd : A.hasData = true) (hG : OnGrid s all A axes) (hg : ∀ k, CellGrid (axes k) cells) {t : List Char} {v : EvVal F}
    (ht : Literal lib tags t v) {Ax : List Nat} (hAx : GradNames lib.fn v Ax) (hlt : ∀ a ∈ Ax, a < cells.length)
    (T : Tag) (hT : T ≠ []) (label : Option (List Char)) :
    ∃ s', ev lib (joinWith ' ' (A.tokens ++ [t, "grad2".toList])) (some T) label all s = .ok s' ∧
      AddsUnder s s' T A.count fun k d => ∃ G, HasField d (axes k) cells (m * Ax.length) G ∧
        ∀ i, inRange cells i = true → ∀ j a, Ax[j]? = some a → ∀ c < m,
          IsPartial (axes k) cells (fun i => A.num lib.fn k (i ++ [c])) a i (G i (j * m + c)) := by
  refine ev_field2 hr hg (pushes_field hr add_comm hA hd hG) (f := EvCmd.grad2 lib.fn) rfl ht (fun k i ⟨h1, a, h2, h3⟩ => ?_) T hT label
  rw [h1, h2]
  exact C98_grad2 (hg k) h3 hAx hlt none

/-- C99: `A div` adds the sum of the derivatives of component `d` along axis `d`. -/
theorem C99_div_command (hr : EvReady lib s all tags) (hA : OperandOK lib s all tags (A, cells ++ [m]))
    (hd : A.hasData = true) (hG : OnGrid s all A axes) (hg : ∀ k, CellGrid (axes k) cells) (hm : cells.length ≤ m)
    (T : Tag) (hT : T ≠ []) (label : Option (List Char)) :
    ∃ s', ev lib (joinWith ' ' (A.tokens ++ ["div".toList])) (some T) label all s = .ok s' ∧
      AddsUnder s s' T A.count fun k d => ∃ G, HasField d (axes k) cells 1 G ∧ ∃ D : Nat → List Nat → F,
        ∀ i, inRange cells i = true → G i 0 = ((List.range cells.length).map fun a => D a i).sum ∧
          ∀ a < cells.length, IsPartial (axes k) cells (fun i => A.num lib.fn k (i ++ [a])) a i (D a i) := by
  refine ev_field1 hr hg (pushes_field hr add_comm hA hd hG) (f := EvCmd.divergence) rfl (Q := fun k G => ∃ D : Nat → List Nat → F,
        ∀ i, inRange cells i = true → G i 0 = ((List.range cells.length).map fun a => D a i).sum ∧
          ∀ a < cells.length, IsPartial (axes k) cells (fun i => A.num lib.fn k (i ++ [a])) a i (D a i))
    (fun k i ⟨h1, a, h2, h3⟩ => ?_) T hT label
  obtain ⟨w, G, D, e1, e2, e3⟩ := C99_div (hg k) h3 hm
  exact ⟨w, _, by rw [h1, h2]; exact e1, e2, D, e3⟩

/-- C99: `A curl` with three or more components on two axes. -/
theorem C99_curl_command_partial {n k : Nat} {x y : Nat → List F} (hr : EvReady lib s all tags) (hm : 3 ≤ m)
    (hA : OperandOK lib s all tags (A, [n, k] ++ [m])) (hd : A.hasData = true) (hG : OnGrid s all A fun j => [x j, y j])
    (hg : ∀ j, CellGrid [x j, y j] [n, k]) (T : Tag) (hT : T ≠ []) (label : Option (List Char)) :
    ∃ s', ev lib (joinWith ' ' (A.tokens ++ ["curl".toList])) (some T) label all s = .ok s' ∧
      AddsUnder s s' T A.count fun j d => ∃ G, HasField d [x j, y j] [n, k] m G ∧ ∀ i, inRange [n, k] i = true →
        IsPartial [x j, y j] [n, k] (fun i => A.num lib.fn j (i ++ [2])) 1 i (G i 0) ∧
        (∃ s, IsPartial [x j, y j] [n, k] (fun i => A.num lib.fn j (i ++ [2])) 0 i s ∧ G i 1 = -s) ∧
        (∃ s t, IsPartial [x j, y j] [n, k] (fun i => A.num lib.fn j (i ++ [1])) 0 i s ∧
          IsPartial [x j, y j] [n, k] (fun i => A.num lib.fn j (i ++ [0])) 1 i t ∧ G i 2 = s - t) ∧ ∀ c, 3 ≤ c → G i c = 0 := by
  refine ev_field1 hr hg (pushes_field hr add_comm hA hd hG) (f := EvCmd.curl) rfl (fun j i ⟨h1, a, h2, h3⟩ => ?_) T hT label
  rw [h1, h2]
  exact C99_curl_plane_partial (hg j) hm h3

/-- C99: `A curl` with two components on two axes. -/
theorem C99_curl_two_command_partial {n k : Nat} {x y : Nat → List F} (hr : EvReady lib s all tags)
    (hA : OperandOK lib s all tags (A, [n, k] ++ [2])) (hd : A.hasData = true) (hG : OnGrid s all A fun j => [x j, y j])
    (hg : ∀ j, CellGrid [x j, y j] [n, k]) (T : Tag) (hT : T ≠ []) (label : Option (List Char)) :
    ∃ s', ev lib (joinWith ' ' (A.tokens ++ ["curl".toList])) (some T) label all s = .ok s' ∧
      AddsUnder s s' T A.count fun j d => ∃ G, HasField d [x j, y j] [n, k] 1 G ∧ ∀ i, inRange [n, k] i = true →
        ∃ s t, IsPartial [x j, y j] [n, k] (fun i => A.num lib.fn j (i ++ [1])) 0 i s ∧
          IsPartial [x j, y j] [n, k] (fun i => A.num lib.fn j (i ++ [0])) 1 i t ∧ G i 0 = s - t := by
  refine ev_field1 hr hg (pushes_field hr add_comm hA hd hG) (f := EvCmd.curl) rfl (fun j i ⟨h1, a, h2, h3⟩ => ?_) T hT label
  rw [h1, h2]
  exact C99_curl_plane_two_partial (hg j) h3

/-- C99: `A curl` with three components on one axis. -/
theorem C99_curl_line_command_partial {n : Nat} {x : Nat → List F} (hr : EvReady lib s all tags)
    (hA : OperandOK lib s all tags (A, [n] ++ [3])) (hd : A.hasData = true) (hG : OnGrid s all A fun j => [x j])
    (hg : ∀ j, CellGrid [x j] [n]) (T : Tag) (hT : T ≠ []) (label : Option (List Char)) :
    ∃ s', ev lib (joinWith ' ' (A.tokens ++ ["curl".toList])) (some T) label all s = .ok s' ∧
      AddsUnder s s' T A.count fun j d => ∃ G, HasField d [x j] [n] 3 G ∧ ∀ i, inRange [n] i = true → G i 0 = 0 ∧
        (∃ s, IsPartial [x j] [n] (fun i => A.num lib.fn j (i ++ [2])) 0 i s ∧ G i 1 = -s) ∧
        IsPartial [x j] [n] (fun i => A.num lib.fn j (i ++ [1])) 0 i (G i 2) := by
  refine ev_field1 hr hg (pushes_field hr add_comm hA hd hG) (f := EvCmd.curl) rfl (fun j i ⟨h1, a, h2, h3⟩ => ?_) T hT label
  rw [h1, h2]
  exact C99_curl_line_partial (hg j) h3

/-- C100: `A curl div` adds zeros (two axes, three components or more). -/
theorem C100_div_curl_command {n k : Nat} {x y : Nat → List F} (hr : EvReady lib s all tags) (hm : 3 ≤ m)
    (hA : OperandOK lib s all tags (A, [n, k] ++ [m])) (hd : A.hasData = true) (hG : OnGrid s all A fun j => [x j, y j])
    (hg : ∀ j, CellGrid [x j, y j] [n, k]) (T : Tag) (hT : T ≠ []) (label : Option (List Char)) :
    ∃ s', ev lib (joinWith ' ' (A.tokens ++ ["curl".toList, "div".toList])) (some T) label all s = .ok s' ∧
      AddsUnder s s' T A.count fun j d => HasField d [x j, y j] [n, k] 1 fun _ _ => 0 := by
  have hp := pushes_op1 hr (op := "curl".toList) (f := EvCmd.curl) rfl (pushes_field hr add_comm hA hd hG)
    (R := fun j i => i.grid = some ([x j, y j].map NArr.ofList) ∧ ∃ g w u, i.val = .arr w ∧ i.grid = g ∧
      EvCmd.divergence [g] [.arr w] = .ok (g, .arr u) ∧ IsField u [n, k] 1 fun _ _ => 0) fun j i ⟨h1, a, h2, h3⟩ => by
      obtain ⟨g, w, u, e1, e2, e3⟩ := C100_div_curl (hg j) hm h3
      obtain ⟨w', G, e4, -⟩ := C99_curl_plane_partial (hg j) hm h3
      have hgg : g = some [NArr.ofList (x j), NArr.ofList (y j)] := by
        rw [e1] at e4; exact (Prod.mk.inj (Except.ok.inj e4)).1
      exact ⟨_, _, by rw [h1, h2]; exact e1, fun c => ⟨hgg, g, w, u, rfl, rfl, e2, e3⟩⟩
  have hq := pushes_op1 hr (op := "div".toList) (f := EvCmd.divergence) rfl hp
    (R := fun j i => ∃ G, FieldItem [x (min j (A.count - 1)), y (min j (A.count - 1))] [n, k] 1 G i ∧ G = fun _ _ => 0)
    fun j i ⟨h1, g, w, u, e1, e2, e3, e4⟩ => ⟨g, .arr u, by rw [e1, e2]; exact e3, fun c => ⟨_, ⟨by rw [← h1, ← e2], u, rfl, e4⟩, rfl⟩⟩
  rw [List.append_assoc] at hq
  obtain ⟨s', r1, r2⟩ := ev_field hr hg (m := 1) (Q := fun _ G => G = fun _ _ => 0) (hq.mono fun j i h => by simpa using h) T hT label
  refine ⟨s', r1, ?_⟩
  obtain ⟨new, q1, q2, q3, q4⟩ := r2
  refine ⟨new, q1, q2, fun j hj => ?_, q4⟩
  obtain ⟨d, a1, ⟨G, a2, rfl⟩, a3⟩ := q3 j hj
  exact ⟨d, a1, a2, a3⟩

/-- C100: `A grad curl` adds zeros (one component, two axes). -/
theorem C100_curl_grad_command {n k : Nat} {x y : Nat → List F} (hr : EvReady lib s all tags)
    (hA : OperandOK lib s all tags (A, [n, k] ++ [1])) (hd : A.hasData = true) (hG : OnGrid s all A fun j => [x j, y j])
    (hg : ∀ j, CellGrid [x j, y j] [n, k]) (T : Tag) (hT : T ≠ []) (label : Option (List Char)) :
    ∃ s', ev lib (joinWith ' ' (A.tokens ++ ["grad".toList, "curl".toList])) (some T) label all s = .ok s' ∧
      AddsUnder s s' T A.count fun j d => HasField d [x j, y j] [n, k] 1 fun _ _ => 0 := by
  have hp := pushes_op1 hr (op := "grad".toList) (f := EvCmd.grad) rfl (pushes_field hr add_comm hA hd hG)
    (R := fun j i => i.grid = some ([x j, y j].map NArr.ofList) ∧ ∃ g w u, i.val = .arr w ∧ i.grid = g ∧
      EvCmd.curl [g] [.arr w] = .ok (g, .arr u) ∧ IsField u [n, k] 1 fun _ _ => 0) fun j i ⟨h1, a, h2, h3⟩ => by
      obtain ⟨g, w, u, e1, e2, e3⟩ := C100_curl_grad (hg j) h3
      obtain ⟨w', G, e4, -⟩ := C98_grad (hg j) h3
      have hgg : g = some [NArr.ofList (x j), NArr.ofList (y j)] := by
        rw [show (some ([x j, y j].map NArr.ofList) : EvGrid F) = some [NArr.ofList (x j), NArr.ofList (y j)] from rfl, e1] at e4
        exact (Prod.mk.inj (Except.ok.inj e4)).1
      exact ⟨_, _, by rw [h1, h2]; exact e1, fun c => ⟨hgg, g, w, u, rfl, rfl, e2, e3⟩⟩
  have hq := pushes_op1 hr (op := "curl".toList) (f := EvCmd.curl) rfl hp
    (R := fun j i => ∃ G, FieldItem [x (min j (A.count - 1)), y (min j (A.count - 1))] [n, k] 1 G i ∧ G = fun _ _ => 0)
    fun j i ⟨h1, g, w, u, e1, e2, e3, e4⟩ => ⟨g, .arr u, by rw [e1, e2]; exact e3, fun c => ⟨_, ⟨by rw [← h1, ← e2], u, rfl, e4⟩, rfl⟩⟩
  rw [List.append_assoc] at hq
  obtain ⟨s', r1, r2⟩ := ev_field hr hg (m := 1) (Q := fun _ G => G = fun _ _ => 0) (hq.mono fun j i h => by simpa using h) T hT label
  refine ⟨s', r1, ?_⟩
  obtain ⟨new, q1, q2, q3, q4⟩ := r2
  refine ⟨new, q1, q2, fun j hj => ?_, q4⟩
  obtain ⟨d, a1, ⟨G, a2, rfl⟩, a3⟩ := q3 j hj
  exact ⟨d, a1, a2, a3⟩

end

section
variable {A : Expr F} {sh : List Nat} {axes : Nat → List (List F)}

/-- The result of `int` or `avg` on the stack. -/
theorem pushes_integral (hr : EvReady lib s all tags) (avg : Bool) {op : List Char}
    (hop : cmds lib.fn op = some (2, EvCmd.integrate lib.fn avg)) (hA : OperandOK lib s all tags (A, sh))
    (hd : A.hasData = true) (hG : OnGrid s all A axes) (hg : ∀ k, FitsAll (axes k) sh) {t : List Char} {v : EvVal F}
    (ht : Literal lib tags t v) {Ax : List Nat} (hAx : EvNames lib.fn (sh.length - 1) v Ax) (hnd : Ax.Nodup)
    (hlt : ∀ a ∈ Ax, a + 1 < sh.length) {f : Nat → List Nat → F}
    (hf : ∀ k idx, inRange (collapsed Ax sh) idx = true → (EvCmd.sortDesc Ax).foldr
        (fun a y => if avg then y / codeLength ((axes k).getD a []) (sh.getD a 0) else y)
        (cellSum sh (fun i => A.num lib.fn k i) (gridWidth (axes k) sh) Ax idx) = f k idx) :
    Pushes lib s all tags (A.tokens ++ [t, op]) A.count true fun k i =>
      (fun k i => ArrItem (zeroAxes Ax (axes k)) (collapsed Ax sh) (f k) i) (min k (A.count - 1)) i := by
  refine pushes_op2 hr hop (pushes_array hr add_comm hA hd hG) ht
    (R := fun k i => ArrItem (zeroAxes Ax (axes k)) (collapsed Ax sh) (f k) i) fun k i ⟨h1, a, h2, h3, h4, h5⟩ => ?_
  have hlen : (axes k).length = sh.length - 1 := by have := (hg k).1; omega
  obtain ⟨g', r, e1, e2, e3, e4, e5, e6, e7⟩ := ev_integrate_core lib.fn avg none h3 (by rw [h4]; exact hg k) hnd
    (fun b hb => by have := hlt b hb; omega) (by rw [hlen]; exact hAx)
  have hgr : g' = (zeroAxes Ax (axes k)).map NArr.ofList := by
    refine List.ext_getElem? fun j => ?_
    by_cases hj : j ∈ Ax
    · have hjl : j < (axes k).length := by have := hlt j hj; omega
      rw [e5 j hj, List.getElem?_map, zeroAxes, List.getElem?_mapIdx, List.getElem?_eq_getElem hjl]
      simp [hj]
    · rw [e6 j hj, List.getElem?_map, zeroAxes, List.getElem?_mapIdx]
      cases (axes k)[j]? <;> simp [hj]
  refine ⟨_, _, by rw [h1, h2]; exact e1, fun c => ⟨congrArg some hgr, r, rfl, e2, by rw [e3, h4], fun idx hi => ?_⟩⟩
  rw [e7 idx (by rw [e3, h4]; exact hi), h4, cellSum_congr (v := fun i => A.num lib.fn k i)
    (fun j hj => by rw [entry, h5 j hj]; rfl), hf k idx hi]

omit [_root_.Field F] in
/-- An array is added with its grid. -/
theorem push_array {axes : List (List F)} {sh : List Nat} {f : List Nat → F} {i : Item F} (h : ArrItem axes sh f i)
    (hl : sh.length = axes.length + 1) (hne : ∀ x ∈ axes, x ≠ []) (d : GData F) :
    ∃ d', pushItem d i = .ok d' ∧ (d'.grid = some (axes.map NArr.ofList) ∧ HoldsArray d' sh f) ∧ d'.tag = d.tag ∧
      d'.status = d.status := by
  obtain ⟨h1, a, h2, h3, h4, h5⟩ := h
  obtain ⟨g, w, c⟩ := i
  obtain rfl : g = _ := h1
  obtain rfl : w = _ := h2
  obtain ⟨d', p1, ⟨p2, p3⟩, p4⟩ := pushItem_good (a := a) (sh := sh) (by rw [h4])
    (goodGrid_axes (axes := axes) hl.symm hne) d c
  exact ⟨d', p1, ⟨p3, a, p2, h3, h4, h5⟩, p4⟩

omit [LinearOrder F] in
theorem zeroAxes_nonempty {axes : List (List F)} (h : ∀ x ∈ axes, x ≠ []) (Ax : List Nat) : ∀ x ∈ zeroAxes Ax axes, x ≠ [] := by
  intro x hx
  obtain ⟨j, hj⟩ := List.getElem?_of_mem hx
  rw [zeroAxes, List.getElem?_mapIdx] at hj
  cases hk : axes[j]? with
  | none => rw [hk] at hj; cases hj
  | some z =>
    rw [hk] at hj
    have hz := h z (List.mem_of_getElem? hk)
    simp only [Option.map_some, Option.some.injEq] at hj
    rw [← hj]; split
    · simp
    · exact hz

/-- `int` and `avg`. -/
theorem ev_integral (hr : EvReady lib s all tags) (avg : Bool) {op : List Char}
    (hop : cmds lib.fn op = some (2, EvCmd.integrate lib.fn avg)) (hA : OperandOK lib s all tags (A, sh))
    (hd : A.hasData = true) (hG : OnGrid s all A axes) (hg : ∀ k, FitsAll (axes k) sh) {t : List Char} {v : EvVal F}
    (ht : Literal lib tags t v) {Ax : List Nat} (hAx : EvNames lib.fn (sh.length - 1) v Ax) (hnd : Ax.Nodup)
    (hlt : ∀ a ∈ Ax, a + 1 < sh.length) {f : Nat → List Nat → F}
    (hf : ∀ k idx, inRange (collapsed Ax sh) idx = true → (EvCmd.sortDesc Ax).foldr
        (fun a y => if avg then y / codeLength ((axes k).getD a []) (sh.getD a 0) else y)
        (cellSum sh (fun i => A.num lib.fn k i) (gridWidth (axes k) sh) Ax idx) = f k idx)
    (T : Tag) (hT : T ≠ []) (label : Option (List Char)) :
    ∃ s', ev lib (joinWith ' ' (A.tokens ++ [t, op])) (some T) label all s = .ok s' ∧
      AddsUnder s s' T A.count fun k d => d.grid = some ((zeroAxes Ax (axes k)).map NArr.ofList) ∧
        HoldsArray d (collapsed Ax sh) (f k) := by
  refine ev_of_op hr (P := fun k i => ArrItem (zeroAxes Ax (axes k)) (collapsed Ax sh) (f k) i)
    (pushes_integral hr avg hop hA hd hG hg ht hAx hnd hlt hf)
    _ (fun k i hi d => push_array hi (by rw [collapsed_length, zeroAxes, List.length_mapIdx]; exact (hg k).1)
      (zeroAxes_nonempty (fits_nonempty (hg k)) Ax) d) T hT label

/-- C30: `A axes int` adds, for every dataset of `A`, the sums of value times cell widths over the named axes. -/
theorem C30_ev_command (hr : EvReady lib s all tags) (hA : OperandOK lib s all tags (A, sh))
    (hd : A.hasData = true) (hG : OnGrid s all A axes) (hg : ∀ k, FitsAll (axes k) sh) {t : List Char} {v : EvVal F}
    (ht : Literal lib tags t v) {Ax : List Nat} (hAx : EvNames lib.fn (sh.length - 1) v Ax) (hnd : Ax.Nodup)
    (hlt : ∀ a ∈ Ax, a + 1 < sh.length) (T : Tag) (hT : T ≠ []) (label : Option (List Char)) :
    ∃ s', ev lib (joinWith ' ' (A.tokens ++ [t, "int".toList])) (some T) label all s = .ok s' ∧
      AddsUnder s s' T A.count fun k d => d.grid = some ((zeroAxes Ax (axes k)).map NArr.ofList) ∧
        HoldsArray d (collapsed Ax sh) (cellSum sh (fun i => A.num lib.fn k i) (gridWidth (axes k) sh) Ax) :=
  ev_integral hr false rfl hA hd hG hg ht hAx hnd hlt (fun k idx _ => by
    induction EvCmd.sortDesc Ax with
    | nil => rfl
    | cons a l ih => simp) T hT label

/-- C31: `A axes avg` adds the same divided by the lengths covered (on nodal grids where the first and the last spacing agree).

Full statement (false, see `C31_nodal_fails`): on every grid. -/
theorem C31_ev_command_partial (hr : EvReady lib s all tags) (hA : OperandOK lib s all tags (A, sh))
    (hd : A.hasData = true) (hG : OnGrid s all A axes) (hg : ∀ k, FitsAll (axes k) sh) {t : List Char} {v : EvVal F}
    (ht : Literal lib tags t v) {Ax : List Nat} (hAx : EvNames lib.fn (sh.length - 1) v Ax) (hnd : Ax.Nodup)
    (hlt : ∀ a ∈ Ax, a + 1 < sh.length)
    (hlen : ∀ k, ∀ a ∈ Ax, ∀ (x : List F) (n : Nat), (axes k)[a]? = some x → sh[a]? = some n → covered x n ≠ 0 ∧
      (x.length = n → x.getD (n - 1) 0 - x.getD (n - 2) 0 = x.getD 1 0 - x.getD 0 0))
    (T : Tag) (hT : T ≠ []) (label : Option (List Char)) :
    ∃ s', ev lib (joinWith ' ' (A.tokens ++ [t, "avg".toList])) (some T) label all s = .ok s' ∧
      AddsUnder s s' T A.count fun k d => d.grid = some ((zeroAxes Ax (axes k)).map NArr.ofList) ∧
        HoldsArray d (collapsed Ax sh) (fun idx => cellSum sh (fun i => A.num lib.fn k i) (gridWidth (axes k) sh) Ax idx /
          (Ax.map fun a => covered ((axes k).getD a []) (sh.getD a 0)).prod) ∧
        ∀ c, (∀ idx, inRange sh idx = true → A.num lib.fn k idx = c) → HoldsArray d (collapsed Ax sh) fun _ => c := by
  have hL : ∀ k, ∀ a ∈ Ax, codeLength ((axes k).getD a []) (sh.getD a 0) = covered ((axes k).getD a []) (sh.getD a 0) ∧
      covered ((axes k).getD a []) (sh.getD a 0) ≠ 0 := by
    intro k a ha
    have h2 : a < sh.length := by have := hlt a ha; omega
    have h1 : a < (axes k).length := by have := (hg k).1; have := hlt a ha; omega
    have e1 : (axes k)[a]? = some (axes k)[a] := List.getElem?_eq_getElem h1
    have e2 : sh[a]? = some sh[a] := List.getElem?_eq_getElem h2
    have e3 : (axes k).getD a [] = (axes k)[a] := by rw [List.getD_eq_getElem?_getD, e1]; rfl
    have e4 : sh.getD a 0 = sh[a] := by rw [List.getD_eq_getElem?_getD, e2]; rfl
    obtain ⟨q1, q2⟩ := hlen k a ha _ _ e1 e2
    rw [e3, e4]
    refine ⟨?_, q1⟩
    unfold codeLength covered
    by_cases hx : (axes k)[a].length = sh[a]
    · rw [if_pos hx, if_pos hx, q2 hx, hx]
    · rw [if_neg hx, if_neg hx]
      rcases (hg k).2 a _ _ e1 e2 with h | h
      · rw [h]; simp
      · exact absurd h.1 hx
  obtain ⟨s', r1, new, q1, q2, q3, q4⟩ := ev_integral hr true (op := "avg".toList) rfl hA hd hG hg ht hAx hnd hlt
    (f := fun k idx => cellSum sh (fun i => A.num lib.fn k i) (gridWidth (axes k) sh) Ax idx /
          (Ax.map fun a => covered ((axes k).getD a []) (sh.getD a 0)).prod) (fun k idx _ => by
      have hp : (EvCmd.sortDesc Ax).Perm Ax := List.mergeSort_perm Ax _
      have hdiv : ∀ (l : List Nat) (y : F), l.foldr (fun a y => if true then
          y / codeLength ((axes k).getD a []) (sh.getD a 0) else y) y =
          y / (l.map fun a => codeLength ((axes k).getD a []) (sh.getD a 0)).prod := by
        intro l y
        induction l with
        | nil => simp
        | cons a l ih => simp only [List.foldr_cons, if_true, List.map_cons, List.prod_cons] at ih ⊢; rw [ih, div_div, mul_comm]
      rw [hdiv]
      congr 1
      rw [prod_perm_map hp, List.map_congr_left fun a ha => (hL k a ha).1]) T hT label
  refine ⟨s', r1, new, q1, q2, fun k hk => ?_, q4⟩
  obtain ⟨d, a1, ⟨a2, a3⟩, a4⟩ := q3 k hk
  refine ⟨d, a1, ⟨a2, a3, fun c hc => ?_⟩, a4⟩
  obtain ⟨a, b1, b2, b3, b4⟩ := a3
  refine ⟨a, b1, b2, b3, fun idx hi => ?_⟩
  simp only [b4 idx hi]
  rw [cellSum_congr (v := fun _ => c) hc, cellSum_const_covered hnd (hg k)
    (fun a ha => by have := (hg k).1; have := hlt a ha; omega) hi, mul_div_assoc, div_self, mul_one]
  intro h0
  obtain ⟨a, ha, h1⟩ := List.mem_map.1 (List.prod_eq_zero_iff.1 h0)
  exact (hL k a ha).2 h1


omit [_root_.Field F] in
/-- A word that is neither data nor an operator ends the program wherever it stands. -/
theorem ev_unknown [Add F] [Sub F] [Mul F] [Div F] [Zero F] [IntCast F] (hr : EvReady lib s all tags) {t : List Char}
    (hopn : OpName lib tags t) (hcmd : cmds lib.fn t = none) {pre post : List (List Char)}
    (hw : ∀ p ∈ pre ++ t :: post, p ≠ [] ∧ ' ' ∉ p) (T label : Option (List Char)) :
    ∃ e, ev lib (joinWith ' ' (pre ++ t :: post)) T label all s = .error e := by
  have hrun : ∃ e, (pre ++ t :: post).foldlM (token lib s tags (!all)) {} = .error e := by
    rw [List.foldlM_append]
    cases h : pre.foldlM (token lib s tags (!all)) {} with
    | error e => exact ⟨e, rfl⟩
    | ok st =>
      refine ⟨.fail, ?_⟩
      simp only [bind, Except.bind, List.foldlM_cons, token, data_op hopn, command, hcmd]
  obtain ⟨e, he⟩ := hrun
  exact ⟨e, by simp only [ev, hr.known, tokens_joinWith hw, he, bind, Except.bind]⟩

/-- C30 fails for the word `all`, which `int` and `avg` accept but the command does not take for an operand: the chain is an
error. -/
theorem C30_all_fails (hr : EvReady lib s all tags) (hA : OperandOK lib s all tags (A, sh)) (hall : "all".toList ∉ tags)
    (hpf : lib.pf "all".toList = none) {op : List Char} (hop : op = "int".toList ∨ op = "avg".toList)
    (T label : Option (List Char)) :
    ∃ e, ev lib (joinWith ' ' (A.tokens ++ ["all".toList, op])) T label all s = .error e := by
  refine ev_unknown hr ⟨hall, hpf, by decide⟩ rfl (fun p hp => ?_) T label
  rcases List.mem_append.1 hp with hp | hp
  · exact expr_tokens_ok hA.leaves p hp
  · simp only [List.mem_cons, List.not_mem_nil, or_false] at hp
    rcases hp with rfl | rfl
    · decide
    · rcases hop with rfl | rfl <;> decide

end

section
variable {A : Expr F} {cells : List Nat} {m : Nat} {axes : Nat → List (List F)}

/-- C101: `A comps factor scale_comp` multiplies the named components by the factor; named by a text without repetition.

Full statement (false, see `C101_scale_twice_fails`): named by any text. -/
theorem C101_scale_command_partial (hr : EvReady lib s all tags) (hA : OperandOK lib s all tags (A, cells ++ [m]))
    (hd : A.hasData = true) (hG : OnGrid s all A axes) (hg : ∀ k, FitsAll (axes k) (cells ++ [m])) {t u : List Char} {x : F}
    (ht : Literal lib tags t (.str t)) (hu : Literal lib tags u (.arr (NArr.scalar x))) {cs : List Nat}
    (hs : CompDenotes m (some (IdxArg.str (F := F) t)) cs) (hnd : cs.Nodup) (T : Tag) (hT : T ≠ []) (label : Option (List Char)) :
    ∃ s', ev lib (joinWith ' ' (A.tokens ++ [t, u, "scale_comp".toList])) (some T) label all s = .ok s' ∧
      AddsUnder s s' T A.count fun k d => HasField d (axes k) cells m fun i c =>
        if c ∈ cs then A.num lib.fn k (i ++ [c]) * x else A.num lib.fn k (i ++ [c]) := by
  refine ev_of_op hr (P := fun k i => FieldItem (axes k) cells m (fun i c =>
        if c ∈ cs then A.num lib.fn k (i ++ [c]) * x else A.num lib.fn k (i ++ [c])) i)
    (pushes_op3 hr (op := "scale_comp".toList) rfl (pushes_field hr add_comm hA hd hG) ht hu
      (R := fun k i => FieldItem (axes k) cells m (fun i c =>
        if c ∈ cs then A.num lib.fn k (i ++ [c]) * x else A.num lib.fn k (i ++ [c])) i) fun k i ⟨h1, a, h2, h3⟩ => ?_)
    _ (fun k i hi d => push_field hi (by have := (hg k).1; simp at this; omega) (fits_nonempty (hg k)) d) T hT label
  obtain ⟨w, e1, e2⟩ := C101_scale_text_partial (fn := lib.fn) h3 hs hnd none none i.grid x
  exact ⟨_, _, by rw [h2]; exact e1, fun c => ⟨h1, w, rfl, e2⟩⟩

/-- C101: the component named by a number. -/
theorem C101_scale_number_command (hr : EvReady lib s all tags) (hA : OperandOK lib s all tags (A, cells ++ [m]))
    (hd : A.hasData = true) (hG : OnGrid s all A axes) (hg : ∀ k, FitsAll (axes k) (cells ++ [m])) {t u : List Char} {x y : F}
    (ht : Literal lib tags t (.arr (NArr.scalar y))) (hu : Literal lib tags u (.arr (NArr.scalar x))) {j : Nat} (hj : j < m)
    (hy : lib.fn.toInt y = some (j : Int)) (T : Tag) (hT : T ≠ []) (label : Option (List Char)) :
    ∃ s', ev lib (joinWith ' ' (A.tokens ++ [t, u, "scale_comp".toList])) (some T) label all s = .ok s' ∧
      AddsUnder s s' T A.count fun k d => HasField d (axes k) cells m fun i c =>
        if c = j then A.num lib.fn k (i ++ [c]) * x else A.num lib.fn k (i ++ [c]) := by
  refine ev_of_op hr (P := fun k i => FieldItem (axes k) cells m (fun i c =>
        if c = j then A.num lib.fn k (i ++ [c]) * x else A.num lib.fn k (i ++ [c])) i)
    (pushes_op3 hr (op := "scale_comp".toList) rfl (pushes_field hr add_comm hA hd hG) ht hu
      (R := fun k i => FieldItem (axes k) cells m (fun i c =>
        if c = j then A.num lib.fn k (i ++ [c]) * x else A.num lib.fn k (i ++ [c])) i) fun k i ⟨h1, a, h2, h3⟩ => ?_)
    _ (fun k i hi d => push_field hi (by have := (hg k).1; simp at this; omega) (fits_nonempty (hg k)) d) T hT label
  obtain ⟨w, e1, e2⟩ := C101_scale_number (fn := lib.fn) hj h3 hy none none i.grid x
  exact ⟨_, _, by rw [h2]; exact e1, fun c => ⟨h1, w, rfl, e2⟩⟩

end

end

/-! ## The hypotheses are met -/

namespace EvCommandEx

/-- Rational numbers; `int(x)` rounds. -/
def lib : Lib ℚ := { EvLinEx.lib with fn := { EvLinEx.lib.fn with toInt := fun x => some x.floor } }

def x : List ℚ := [0, 1, 3, 4]
def y : List ℚ := [0, 1, 2, 3]

/-- A dataset on three by three cells. -/
def plane (tag : String) (m : Nat) (vals : List ℚ) : GData ℚ where
  grid := some ([x, y].map NArr.ofList)
  values := some ⟨[3, 3, m], vals⟩
  tag := tag.toList

def pv : List ℚ := [1, 2, 3, 4, 5, 6, 7, 8, 9]
def vv : List ℚ := (List.range 27).map fun (i : Nat) => ((i * i : Nat) : ℚ)
def ww : List ℚ := (List.range 18).map fun (i : Nat) => ((i * i : Nat) : ℚ)

/-- A scalar field `p`, a vector field `v` and a field `w` with two components. -/
def store : Space ℚ := perform [.add (plane "p" 1 pv), .add (plane "v" 3 vv), .add (plane "w" 2 ww)]

def tags : List Tag := ["p".toList, "v".toList, "w".toList]

def p : Expr ℚ := .leaf (.data (some "p".toList) none none [⟨[3, 3, 1], pv⟩])
def v : Expr ℚ := .leaf (.data (some "v".toList) none none [⟨[3, 3, 3], vv⟩])
def w : Expr ℚ := .leaf (.data (some "w".toList) none none [⟨[3, 3, 2], ww⟩])

theorem ready : EvReady lib store false tags :=
  ⟨rfl, by decide +kernel, min_comm, max_comm, by simp [lib, EvLinEx.lib]⟩

theorem heap : ∀ d ∈ store.heap, d.ctx.other = [] ∧ d.grid = some ([x, y].map NArr.ofList) := by
  intro d hd
  have : store.heap = [plane "p" 1 pv, plane "v" 3 vv, plane "w" 2 ww] := rfl
  rw [this] at hd
  simp only [List.mem_cons, List.not_mem_nil, or_false] at hd
  rcases hd with rfl | rfl | rfl <;> exact ⟨rfl, rfl⟩

theorem uses_heap {k : Nat} {d : GData ℚ} : ∀ (e : Expr ℚ), e.Uses store false k d → d ∈ store.heap
  | .leaf (.const _ _), h => h.elim
  | .leaf (.data _ _ _ _), ⟨_, _, _, _, h⟩ => List.mem_of_getElem? h
  | .un _ e, h => uses_heap e h
  | .bin _ a b, h => h.elim (uses_heap a) (uses_heap b)

theorem proper (e : Expr ℚ) : ∀ k d, e.Uses store false k d → ProperMeta d.ctx := fun k d h => by
  simp [ProperMeta, (heap d (uses_heap e h)).1]

theorem onGrid (e : Expr ℚ) : OnGrid store false e fun _ => [x, y] := fun _ d h => (heap d (uses_heap e h)).2

theorem okP : OperandOK lib store false tags (p, [3, 3, 1]) :=
  ⟨⟨⟨by decide, by decide, by decide⟩, by simp, by simp, by simp, [(0, 0)], rfl,
    .cons ⟨_, [x, y], _, rfl, ⟨rfl, rfl, rfl, rfl, rfl, by simp [x, y], by simp [x, y]⟩, rfl, rfl⟩ .nil⟩, trivial, proper p⟩

theorem okV : OperandOK lib store false tags (v, [3, 3, 3]) :=
  ⟨⟨⟨by decide, by decide, by decide⟩, by simp, by simp, by simp, [(0, 1)], rfl,
    .cons ⟨_, [x, y], _, rfl, ⟨rfl, rfl, rfl, rfl, rfl, by simp [x, y], by simp [x, y]⟩, rfl, rfl⟩ .nil⟩, trivial, proper v⟩

theorem okW : OperandOK lib store false tags (w, [3, 3, 2]) :=
  ⟨⟨⟨by decide, by decide, by decide⟩, by simp, by simp, by simp, [(0, 2)], rfl,
    .cons ⟨_, [x, y], _, rfl, ⟨rfl, rfl, rfl, rfl, rfl, by simp [x, y], by simp [x, y]⟩, rfl, rfl⟩ .nil⟩, trivial, proper w⟩

/-- The expression `p p *`. -/
theorem okPP : OperandOK lib store false tags (.bin .mul p p, [3, 3, 1]) :=
  ⟨⟨okP.leaves, okP.leaves⟩, ⟨trivial, trivial, by simp⟩, proper _⟩

theorem cells : CellGrid [x, y] [3, 3] := by
  refine ⟨rfl, fun d x n h1 h2 => ?_⟩
  rcases d with - | - | d <;> simp [EvCommandEx.x, y] at h1 h2 <;> subst h1 h2 <;>
    exact ⟨rfl, by omega, by unfold Increasing; decide +kernel⟩

theorem fits (m : Nat) : FitsAll [x, y] [3, 3, m] := by
  refine ⟨rfl, fun d x n h1 h2 => ?_⟩
  rcases d with - | - | d <;> simp [EvCommandEx.x, y] at h1 h2 <;> subst h1 h2 <;> exact .inl rfl

theorem zero : Literal lib tags "0".toList (.arr (NArr.scalar 0)) :=
  .number (by decide +kernel) (by decide) (by decide) (by decide)

theorem five : Literal lib tags "5".toList (.arr (NArr.scalar 5)) :=
  .number (by decide +kernel) (by decide) (by decide) (by decide)

theorem both : Literal lib tags "0,1".toList (.str "0,1".toList) :=
  .text (by decide) (by decide) (by decide) (by decide)

theorem range : Literal lib tags "0:2".toList (.str "0:2".toList) :=
  .text (by decide) (by decide) (by decide) (by decide)

end EvCommandEx

open EvCommandEx in
/-- C98, C99, C100: hypotheses met by `p p * grad`, `v 0:2 grad2`, `v div`, `v curl`, `w curl`, `v curl div` and `p grad curl`. -/
example : (∃ s', ev EvCommandEx.lib "p p * grad".toList (some "r".toList) none false EvCommandEx.store = .ok s') ∧
    (∃ s', ev EvCommandEx.lib "v 0:2 grad2".toList (some "r".toList) none false EvCommandEx.store = .ok s') ∧
    (∃ s', ev EvCommandEx.lib "v div".toList (some "r".toList) none false EvCommandEx.store = .ok s') ∧
    (∃ s', ev EvCommandEx.lib "v curl".toList (some "r".toList) none false EvCommandEx.store = .ok s') ∧
    (∃ s', ev EvCommandEx.lib "w curl".toList (some "r".toList) none false EvCommandEx.store = .ok s') ∧
    (∃ s', ev EvCommandEx.lib "v curl div".toList (some "r".toList) none false EvCommandEx.store = .ok s') ∧
    (∃ s', ev EvCommandEx.lib "p grad curl".toList (some "r".toList) none false EvCommandEx.store = .ok s') := by
  refine ⟨?_, ?_, ?_, ?_, ?_, ?_, ?_⟩
  · obtain ⟨s', h, -⟩ := C98_grad_command ready (cells := [3, 3]) (m := 1) okPP rfl (onGrid _) (fun _ => cells) "r".toList (by simp) none
    exact ⟨s', h⟩
  · obtain ⟨s', h, -⟩ := C98_grad2_command ready (cells := [3, 3]) (m := 3) okV rfl (onGrid _) (fun _ => cells) range
      (GradNames.range (F := ℚ) 0 2) (by decide) "r".toList (by simp) none
    exact ⟨s', h⟩
  · obtain ⟨s', h, -⟩ := C99_div_command ready (cells := [3, 3]) (m := 3) okV rfl (onGrid _) (fun _ => cells) (by decide) "r".toList (by simp) none
    exact ⟨s', h⟩
  · obtain ⟨s', h, -⟩ := C99_curl_command_partial ready (m := 3) (by decide) okV rfl (onGrid _) (fun _ => cells) "r".toList (by simp) none
    exact ⟨s', h⟩
  · obtain ⟨s', h, -⟩ := C99_curl_two_command_partial ready okW rfl (onGrid _) (fun _ => cells) "r".toList (by simp) none
    exact ⟨s', h⟩
  · obtain ⟨s', h, -⟩ := C100_div_curl_command ready (m := 3) (by decide) okV rfl (onGrid _) (fun _ => cells) "r".toList (by simp) none
    exact ⟨s', h⟩
  · obtain ⟨s', h, -⟩ := C100_curl_grad_command ready okP rfl (onGrid _) (fun _ => cells) "r".toList (by simp) none
    exact ⟨s', h⟩

open EvCommandEx in
/-- C30, C31, C101: hypotheses met by `p 0,1 int`, `p 0 avg`, `v 0:2 5 scale_comp` and `v 0 5 scale_comp`. -/
example : (∃ s', ev EvCommandEx.lib "p 0,1 int".toList (some "r".toList) none false EvCommandEx.store = .ok s') ∧
    (∃ s', ev EvCommandEx.lib "p 0 avg".toList (some "r".toList) none false EvCommandEx.store = .ok s') ∧
    (∃ s', ev EvCommandEx.lib "v 0:2 5 scale_comp".toList (some "r".toList) none false EvCommandEx.store = .ok s') ∧
    (∃ s', ev EvCommandEx.lib "v 0 5 scale_comp".toList (some "r".toList) none false EvCommandEx.store = .ok s') ∧
    cellSum [3, 3, 1] (fun i => EvCommandEx.p.num EvCommandEx.lib.fn 0 i) (gridWidth [x, y] [3, 3, 1]) [0, 1] [0, 0, 0] = 60 := by
  refine ⟨?_, ?_, ?_, ?_, by decide +kernel⟩
  · obtain ⟨s', h, -⟩ := C30_ev_command ready okP rfl (onGrid _) (fun _ => fits 1) both (EvNames.list (A := [0, 1]) (by decide)) (by decide)
      (by decide) "r".toList (by simp) none
    exact ⟨s', h⟩
  · obtain ⟨s', h, -⟩ := C31_ev_command_partial ready okP rfl (onGrid _) (fun _ => fits 1) zero (EvNames.number (a := 0) (by decide +kernel))
      (by decide) (by decide) (by
        intro _ a ha z n h1 h2
        obtain rfl : a = 0 := by simpa using ha
        simp at h1 h2; subst h1 h2
        exact ⟨by decide +kernel, by decide⟩) "r".toList (by simp) none
    exact ⟨s', h⟩
  · obtain ⟨s', h, -⟩ := C101_scale_command_partial ready (cells := [3, 3]) (m := 3) okV rfl (onGrid _) (fun _ => fits 3) range five
      (CompDenotes.range 0 2 (by omega) (by omega)) (by decide) "r".toList (by simp) none
    exact ⟨s', h⟩
  · obtain ⟨s', h, -⟩ := C101_scale_number_command ready (cells := [3, 3]) (m := 3) okV rfl (onGrid _) (fun _ => fits 3) zero five
      (j := 0) (by decide) (by decide +kernel) "r".toList (by simp) none
    exact ⟨s', h⟩

end Pgkyl
