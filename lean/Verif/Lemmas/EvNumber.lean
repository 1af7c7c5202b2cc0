import Verif.Lemmas.EvPush
import Verif.Lemmas.IntegrateCore
import Verif.Spec.EvNumber
/-! # Arithmetic with numbers computed from data, and chains that end in an error -/

namespace Pgkyl
open Spec

namespace Ev

section
variable {F : Type}

/-- The item is one number on no axes. -/
def NumItem (x : F) (i : Item F) : Prop :=
  i.grid = some [] ∧ ∃ c, i.val = .arr c ∧ (c.shape = [] ∨ c.shape = [1]) ∧ c.data = [x]

/-- The item is an array on a grid with coordinates `axes`. -/
def ArrItem (axes : List (List F)) (sh : List Nat) (f : List Nat → F) (i : Item F) : Prop :=
  i.grid = some (axes.map NArr.ofList) ∧
    ∃ a, i.val = .arr a ∧ a.WF ∧ a.shape = sh ∧ ∀ idx, inRange sh idx = true → a.get? idx = some (f idx)

theorem bcastShape_num {sh t : List Nat} (hs : sh ≠ []) (ht : t = [] ∨ t = [1]) :
    bcastShape sh t = some sh ∧ bcastShape t sh = some sh := by
  rcases ht with rfl | rfl
  · exact ⟨bcastShape_nil_right sh, bcastShape_nil_left sh⟩
  · have h1 := bcastRev_left sh.reverse (by simpa using hs) []
    have h2 := bcastRev_right sh.reverse (by simpa using hs) []
    simp only [List.nil_append] at h1 h2
    simp [bcastShape, h1, h2]

theorem num_get {c : NArr F} {x : F} (ht : c.shape = [] ∨ c.shape = [1]) (hc : c.data = [x]) {sh idx : List Nat} (hs : sh ≠ [])
    (hi : inRange sh idx = true) :
    inRange c.shape (bcastIdx c.shape idx) = true ∧ c.get? (bcastIdx c.shape idx) = some x := by
  rcases ht with h | h
  · rw [h, bcastIdx_nil]
    exact ⟨rfl, NArr.get?_scalar c h hc⟩
  · have hne : idx.reverse ≠ [] := by
      intro e
      have := inRange_length hi
      rw [List.reverse_eq_nil_iff.1 e] at this
      exact hs (List.length_eq_zero_iff.1 this.symm)
    obtain ⟨i, is, hr⟩ := List.exists_cons_of_ne_nil hne
    have : bcastIdx c.shape idx = [0] := by rw [h]; simp [bcastIdx, hr, bcastIdxRev]
    rw [this]
    constructor
    · rw [h]; rfl
    · simp [NArr.get?, h, inRange, ravel, hc]

/-- An operation of every entry with a number. -/
theorem zip2_num {a c : NArr F} {sh : List Nat} {g : List Nat → F} {x : F} (f : F → F → F) (hs : sh ≠ []) (ha : a.WF)
    (hsh : a.shape = sh) (hg : ∀ idx, inRange sh idx = true → a.get? idx = some (g idx)) (ht : c.shape = [] ∨ c.shape = [1])
    (hc : c.data = [x]) :
    (∃ r, NArr.zip2 f a c = .ok r ∧ r.WF ∧ r.shape = sh ∧ ∀ idx, inRange sh idx = true → r.get? idx = some (f (g idx) x)) ∧
    (∃ r, NArr.zip2 f c a = .ok r ∧ r.WF ∧ r.shape = sh ∧ ∀ idx, inRange sh idx = true → r.get? idx = some (f x (g idx))) := by
  have hw : c.WF := by rcases ht with h | h <;> simp [NArr.WF, h, hc]
  subst hsh
  obtain ⟨b1, b2⟩ := bcastShape_num hs ht
  have hia : ∀ idx, inRange a.shape idx = true → inRange a.shape (bcastIdx a.shape idx) = true := fun idx hi => by
    rw [bcastIdx_self hi]; exact hi
  constructor
  · obtain ⟨r, r1, r2, r3, r4⟩ := NArr.zip2_ok (f := f) b1 ha hw hia fun idx hi => (num_get ht hc hs hi).1
    exact ⟨r, r1, r3, r2, fun idx hi => by rw [r4 idx hi, bcastIdx_self hi, hg idx hi, (num_get ht hc hs hi).2]; rfl⟩
  · obtain ⟨r, r1, r2, r3, r4⟩ := NArr.zip2_ok (f := f) b2 hw ha (fun idx hi => (num_get ht hc hs hi).1) hia
    exact ⟨r, r1, r3, r2, fun idx hi => by rw [r4 idx hi, bcastIdx_self hi, hg idx hi, (num_get ht hc hs hi).2]; rfl⟩

/-- The same for products and quotients. -/
theorem transposed_num {a c : NArr F} {sh : List Nat} {g : List Nat → F} {x : F} (f : F → F → F) (hs : sh ≠ []) (ha : a.WF)
    (hsh : a.shape = sh) (hg : ∀ idx, inRange sh idx = true → a.get? idx = some (g idx)) (ht : c.shape = [] ∨ c.shape = [1])
    (hc : c.data = [x]) :
    (∃ r, EvCmd.transposed f a c = .ok r ∧ r.WF ∧ r.shape = sh ∧
      ∀ idx, inRange sh idx = true → r.get? idx = some (f (g idx) x)) ∧
    (∃ r, EvCmd.transposed f c a = .ok r ∧ r.WF ∧ r.shape = sh ∧
      ∀ idx, inRange sh idx = true → r.get? idx = some (f x (g idx))) := by
  have hz := zip2_num f hs ha hsh hg ht hc
  rcases ht with h | h
  · rw [EvCmd.transposed, EvCmd.transposed, if_pos (by simp [h]), if_pos (by simp [h])]
    exact hz
  · have hw : c.WF := by simp [NArr.WF, h, hc]
    have h0 : c.get? [0] = some x := by simp [NArr.get?, h, inRange, ravel, hc]
    obtain ⟨⟨r, r1, r2, r3, r4⟩, ⟨q, q1, q2, q3, q4⟩⟩ := transposed_low (cells := []) hs ha hw (by simpa using hsh) (by simpa using h) f
    simp only [List.nil_append, List.length_nil, List.take_zero] at r2 r4 q2 q4
    exact ⟨⟨r, r1, r3, r2, fun idx hi => by rw [r4 idx hi, hg idx hi, h0]; rfl⟩,
      ⟨q, q1, q3, q2, fun idx hi => by rw [q4 idx hi, hg idx hi, h0]; rfl⟩⟩

theorem getGrid_num (g : List (NArr F)) : EvCmd.getGrid (some []) (some g) = some g ∧ EvCmd.getGrid (some g) (some []) = some g := by
  cases g <;> simp [EvCmd.getGrid]

end

section
variable {F : Type} [LinearOrder F] [Add F] [Sub F] [Mul F] [Div F] [Zero F] [IntCast F]
variable {lib : Lib F} {s : Space F} {tags : List Tag} {all : Bool}

/-- `i` an array, `j` a number: the operation with the number as second operand. -/
theorem op_num_right (hadd : ∀ x y : F, x + y = y + x) (hmin : ∀ x y, lib.fn.fmin x y = lib.fn.fmin y x)
    (hmax : ∀ x y, lib.fn.fmax x y = lib.fn.fmax y x) (o : BinOp) {axes : List (List F)} {sh : List Nat} (hs : sh ≠ [])
    {f : List Nat → F} {x : F} {i j : Item F} (hi : ArrItem axes sh f i) (hj : NumItem x j) :
    ∃ F0, cmds lib.fn o.text = some (2, F0) ∧ ∃ gr v, F0 [j.grid, i.grid] [j.val, i.val] = .ok (gr, v) ∧
      ∀ c, ArrItem axes sh (fun idx => o.app lib.fn (f idx) x) ⟨gr, v, c⟩ := by
  obtain ⟨h1, a, h2, h3, h4, h5⟩ := hi
  obtain ⟨k1, c, k2, k3, k4⟩ := hj
  obtain ⟨g1, g2⟩ := getGrid_num (axes.map NArr.ofList)
  rw [h1, h2, k1, k2]
  have hz := fun f => (zip2_num f hs h3 h4 h5 k3 k4)
  have ht := fun f => (transposed_num f hs h3 h4 h5 k3 k4)
  cases o with
  | add =>
    obtain ⟨r, r1, r2, r3, r4⟩ := (hz (· + ·)).2
    exact ⟨_, rfl, some (axes.map NArr.ofList), .arr r, by simp only [EvCmd.binary, r1, g1, bind, Except.bind, pure, Except.pure],
      fun c => ⟨rfl, r, rfl, r2, r3, fun idx hi => by rw [r4 idx hi, hadd]; rfl⟩⟩
  | sub =>
    obtain ⟨r, r1, r2, r3, r4⟩ := (hz fun x y => y - x).2
    exact ⟨_, rfl, some (axes.map NArr.ofList), .arr r, by simp only [EvCmd.binary, r1, g1, bind, Except.bind, pure, Except.pure],
      fun c => ⟨rfl, r, rfl, r2, r3, r4⟩⟩
  | mul =>
    obtain ⟨r, r1, r2, r3, r4⟩ := (ht (· * ·)).1
    exact ⟨_, rfl, some (axes.map NArr.ofList), .arr r, by simp only [EvCmd.multLike, r1, g1, bind, Except.bind, pure, Except.pure],
      fun c => ⟨rfl, r, rfl, r2, r3, r4⟩⟩
  | div =>
    obtain ⟨r, r1, r2, r3, r4⟩ := (ht (· / ·)).1
    exact ⟨_, rfl, some (axes.map NArr.ofList), .arr r, by simp only [EvCmd.multLike, r1, g1, bind, Except.bind, pure, Except.pure],
      fun c => ⟨rfl, r, rfl, r2, r3, r4⟩⟩
  | pow =>
    obtain ⟨r, r1, r2, r3, r4⟩ := (hz lib.fn.pow).1
    exact ⟨_, rfl, some (axes.map NArr.ofList), .arr r, by simp only [EvCmd.power, r1, bind, Except.bind, pure, Except.pure],
      fun c => ⟨rfl, r, rfl, r2, r3, r4⟩⟩
  | min =>
    obtain ⟨r, r1, r2, r3, r4⟩ := (hz lib.fn.fmin).2
    exact ⟨_, rfl, some (axes.map NArr.ofList), .arr r, by simp only [EvCmd.binary, r1, g1, bind, Except.bind, pure, Except.pure],
      fun c => ⟨rfl, r, rfl, r2, r3, fun idx hi => by rw [r4 idx hi, hmin]; rfl⟩⟩
  | max =>
    obtain ⟨r, r1, r2, r3, r4⟩ := (hz lib.fn.fmax).2
    exact ⟨_, rfl, some (axes.map NArr.ofList), .arr r, by simp only [EvCmd.binary, r1, g1, bind, Except.bind, pure, Except.pure],
      fun c => ⟨rfl, r, rfl, r2, r3, fun idx hi => by rw [r4 idx hi, hmax]; rfl⟩⟩

/-- The operation with the number as first operand; a power of a number is on no axes. -/
theorem op_num_left (hadd : ∀ x y : F, x + y = y + x) (hmin : ∀ x y, lib.fn.fmin x y = lib.fn.fmin y x)
    (hmax : ∀ x y, lib.fn.fmax x y = lib.fn.fmax y x) (o : BinOp) (ho : o ≠ .pow) {axes : List (List F)} {sh : List Nat} (hs : sh ≠ [])
    {f : List Nat → F} {x : F} {i j : Item F} (hi : ArrItem axes sh f i) (hj : NumItem x j) :
    ∃ F0, cmds lib.fn o.text = some (2, F0) ∧ ∃ gr v, F0 [i.grid, j.grid] [i.val, j.val] = .ok (gr, v) ∧
      ∀ c, ArrItem axes sh (fun idx => o.app lib.fn x (f idx)) ⟨gr, v, c⟩ := by
  obtain ⟨h1, a, h2, h3, h4, h5⟩ := hi
  obtain ⟨k1, c, k2, k3, k4⟩ := hj
  obtain ⟨g1, g2⟩ := getGrid_num (axes.map NArr.ofList)
  rw [h1, h2, k1, k2]
  have hz := fun f => (zip2_num f hs h3 h4 h5 k3 k4)
  have ht := fun f => (transposed_num f hs h3 h4 h5 k3 k4)
  cases o with
  | add =>
    obtain ⟨r, r1, r2, r3, r4⟩ := (hz (· + ·)).1
    exact ⟨_, rfl, some (axes.map NArr.ofList), .arr r, by simp only [EvCmd.binary, r1, g2, bind, Except.bind, pure, Except.pure],
      fun c => ⟨rfl, r, rfl, r2, r3, fun idx hi => by rw [r4 idx hi, hadd]; rfl⟩⟩
  | sub =>
    obtain ⟨r, r1, r2, r3, r4⟩ := (hz fun x y => y - x).1
    exact ⟨_, rfl, some (axes.map NArr.ofList), .arr r, by simp only [EvCmd.binary, r1, g2, bind, Except.bind, pure, Except.pure],
      fun c => ⟨rfl, r, rfl, r2, r3, r4⟩⟩
  | mul =>
    obtain ⟨r, r1, r2, r3, r4⟩ := (ht (· * ·)).2
    exact ⟨_, rfl, some (axes.map NArr.ofList), .arr r, by simp only [EvCmd.multLike, r1, g2, bind, Except.bind, pure, Except.pure],
      fun c => ⟨rfl, r, rfl, r2, r3, r4⟩⟩
  | div =>
    obtain ⟨r, r1, r2, r3, r4⟩ := (ht (· / ·)).2
    exact ⟨_, rfl, some (axes.map NArr.ofList), .arr r, by simp only [EvCmd.multLike, r1, g2, bind, Except.bind, pure, Except.pure],
      fun c => ⟨rfl, r, rfl, r2, r3, r4⟩⟩
  | pow => exact absurd rfl ho
  | min =>
    obtain ⟨r, r1, r2, r3, r4⟩ := (hz lib.fn.fmin).1
    exact ⟨_, rfl, some (axes.map NArr.ofList), .arr r, by simp only [EvCmd.binary, r1, g2, bind, Except.bind, pure, Except.pure],
      fun c => ⟨rfl, r, rfl, r2, r3, fun idx hi => by rw [r4 idx hi, hmin]; rfl⟩⟩
  | max =>
    obtain ⟨r, r1, r2, r3, r4⟩ := (hz lib.fn.fmax).1
    exact ⟨_, rfl, some (axes.map NArr.ofList), .arr r, by simp only [EvCmd.binary, r1, g2, bind, Except.bind, pure, Except.pure],
      fun c => ⟨rfl, r, rfl, r2, r3, fun idx hi => by rw [r4 idx hi, hmax]; rfl⟩⟩

/-- Two operands that are chains themselves. -/
theorem pushes_pair (hr : EvReady lib s all tags) {op : List Char} {f : EvCmd.Func F} (hop : cmds lib.fn op = some (2, f))
    {ts us : List (List Char)} {n m : Nat} {h1 h2 : Bool} {P Q R : Nat → Item F → Prop} (hp : Pushes lib s all tags ts n h1 P)
    (hq : Pushes lib s all tags us m h2 Q)
    (hR : ∀ k i j, P k i → Q k j → ∃ gr w, f [j.grid, i.grid] [j.val, i.val] = .ok (gr, w) ∧ ∀ c, R k ⟨gr, w, c⟩) :
    Pushes lib s all tags (ts ++ us ++ [op]) (max n m) (h1 || h2) fun k i => R (min k (max n m - 1)) i := by
  have := pushes_op hr (op := op) (f := f) (os := [⟨ts, n, h1, P⟩, ⟨us, m, h2, Q⟩]) (R := R) hop
    (fun o ho => by
      simp only [List.mem_cons, List.not_mem_nil, or_false] at ho
      rcases ho with rfl | rfl
      · exact hp
      · exact hq) (by simp) fun k ins hins => ?_
  · simpa using this
  · obtain ⟨i, _, e1, e2, rfl⟩ := List.forall₂_cons_left_iff.1 hins
    obtain ⟨j, _, e3, e4, rfl⟩ := List.forall₂_cons_left_iff.1 e2
    obtain rfl := List.forall₂_nil_left_iff.1 e4
    exact hR k i j e1 e3

/-- The words end in an error wherever they stand. -/
def Fails (lib : Lib F) (s : Space F) (all : Bool) (tags : List Tag) (ts : List (List Char)) : Prop :=
  (∀ p ∈ ts, p ≠ [] ∧ ' ' ∉ p) ∧ ∀ st : St F, ∃ e, ts.foldlM (token lib s tags (!all)) st = .error e

/-- An operator with a literal that cannot be applied. -/
theorem fails_op2 (hr : EvReady lib s all tags) {op : List Char} {f : EvCmd.Func F} (hop : cmds lib.fn op = some (2, f))
    {ts : List (List Char)} {n : Nat} {hd : Bool} {P : Nat → Item F → Prop} (hp : Pushes lib s all tags ts n hd P)
    {t : List Char} {v : EvVal F} (ht : Literal lib tags t v)
    (hR : ∀ k i, P k i → ∃ e, f [none, i.grid] [v, i.val] = .error e) : Fails lib s all tags (ts ++ [t, op]) := by
  have hmem : op ∈ arities.map Prod.fst := List.mem_map.2 ⟨_, mem_of_lookup' (cmds_arity lib.fn hop), rfl⟩
  have hopn : OpName lib tags op := by
    refine ⟨(hr.names op hmem).1, (hr.names op hmem).2, ?_⟩
    have hall : ∀ t ∈ arities.map Prod.fst, t.head? ≠ some 'f' ∧ '(' ∉ t ∧ '[' ∉ t ∧ ':' ∉ t ∧ ',' ∉ t := by decide
    exact hall op hmem
  have hopt : op ≠ [] ∧ ' ' ∉ op := by
    have hall : ∀ t ∈ arities.map Prod.fst, t ≠ [] ∧ ' ' ∉ t := by decide
    exact hall op hmem
  refine ⟨fun p hp' => ?_, fun st => ?_⟩
  · rcases List.mem_append.1 hp' with h | h
    · exact hp.1 p h
    · simp only [List.mem_cons, List.not_mem_nil, or_false] at h
      rcases h with rfl | rfl
      · cases ht <;> assumption
      · exact hopt
  obtain ⟨st', items, h1, h2, h3, h4, -⟩ := hp.2 st
  obtain ⟨i, hi, hPi⟩ := h4 0
  obtain ⟨e, he⟩ := hR 0 i hPi
  have hlen : 0 < items.length := by
    cases items with
    | nil => simp [pickItem] at hi
    | cons => simp
  obtain ⟨e', hE⟩ : ∃ e', (List.range (([[⟨none, v, {}⟩], items] : List (List (Item F))).map List.length |>.foldl max 0)).mapM
      (applyAt lib f [[⟨none, v, {}⟩], items]) = .error e' := by
    refine Space.mapM_error_of_mem (a := 0) (e := .fail) (List.mem_range.2 (by simp)) ?_
    have hm : [[⟨none, v, {}⟩], items].mapM (pickItem (F := F) 0) = .ok [⟨none, v, {}⟩, i] := by
      simp only [List.mapM_cons, List.mapM_nil, pickItem_one, hi, bind, Except.bind, pure, Except.pure]
    simp only [applyAt, hm, bind, Except.bind, List.map_cons, List.map_nil, he]
  refine ⟨e', ?_⟩
  rw [Space.foldlM_append_ok, h1]
  simp only [List.foldlM_cons, List.foldlM_nil, token, literal_data ht, data_op hopn, command, hop, h2, bind, Except.bind, pure,
    Except.pure]
  simp only [List.length_cons, show ¬ st.stack.length + 1 + 1 < 2 by omega, if_false, List.take_succ_cons, List.take_zero, hE]

theorem ev_of_fails (hr : EvReady lib s all tags) {ts us : List (List Char)} (h : Fails lib s all tags ts)
    (hu : ∀ p ∈ us, p ≠ [] ∧ ' ' ∉ p) (T label : Option (List Char)) :
    ∃ e, ev lib (joinWith ' ' (ts ++ us)) T label all s = .error e := by
  have htok := tokens_joinWith (ps := ts ++ us) fun p hp => (List.mem_append.1 hp).elim (h.1 p) (hu p)
  obtain ⟨e, he⟩ := h.2 {}
  refine ⟨e, ?_⟩
  simp only [ev, hr.known, htok, List.foldlM_append, he, bind, Except.bind]

/-- A result that cannot be stored ends the command with an error. -/
theorem ev_unstorable (hr : EvReady lib s all tags) {ts : List (List Char)} {n : Nat} {P : Nat → Item F → Prop}
    (hp : Pushes lib s all tags ts n true P) (hP : ∀ k i, P k i → ∀ d : GData F, ∃ e, pushItem d i = .error e)
    (T : Tag) (hT : T ≠ []) (label : Option (List Char)) :
    ∃ e, ev lib (joinWith ' ' ts) (some T) label all s = .error e := by
  obtain ⟨hw, hrun⟩ := hp
  obtain ⟨st, r, h1, h2, h3, h4, h5⟩ := hrun {}
  have htok := tokens_joinWith hw
  obtain ⟨⟨nm, ix⟩, hid⟩ := Option.isSome_iff_exists.1 (h5 (.inr rfl))
  obtain ⟨c, cs, rfl⟩ : ∃ c cs, T = c :: cs := by
    cases T with
    | nil => exact absurd rfl hT
    | cons c cs => exact ⟨c, cs, rfl⟩
  obtain ⟨i, hi, hPi⟩ := h4 0
  cases r with
  | nil => simp [pickItem] at hi
  | cons j r =>
    have hij : i = j := by simpa [pickItem] using hi.symm
    subst hij
    obtain ⟨e, he⟩ := hP 0 i hPi (GData.new (c :: cs) (label.getD (joinWith ' ' ts)) i.ctx)
    refine ⟨e, ?_⟩
    have hnum : ¬ (st.num = 1 ∧ (some (c :: cs) : Option (List Char)) = none) := by simp
    simp only [ev, hr.known, htok, h1, bind, Except.bind, h2, hid, if_neg hnum, List.foldlM_cons, addStep, he]

end
end Ev
end Pgkyl
