import Verif.Lemmas.EvOps
import Verif.Spec.EvCommand
/-! # Chains of operators in `ev` -/

namespace Pgkyl
namespace Ev
open Spec

section
variable {F : Type} [LinearOrder F] [Add F] [Sub F] [Mul F] [Div F] [Zero F] [IntCast F]
variable {lib : Lib F} {s : Space F} {tags : List Tag} {all : Bool}

/-- The words push one operand of `n` items; `P k` holds for the item used in the `k`-th result; `hd`: there is data among them. -/
def Pushes (lib : Lib F) (s : Space F) (all : Bool) (tags : List Tag) (ts : List (List Char)) (n : Nat) (hd : Bool)
    (P : Nat → Item F → Prop) : Prop :=
  (∀ p ∈ ts, p ≠ [] ∧ ' ' ∉ p) ∧ ∀ st : St F, ∃ st' items, ts.foldlM (token lib s tags (!all)) st = .ok st' ∧
    st'.stack = items :: st.stack ∧ items.length = n ∧ (∀ k, ∃ i, pickItem k items = .ok i ∧ P k i) ∧
    (st.id.isSome ∨ hd = true → st'.id.isSome)

theorem pushes_expr (hr : EvReady lib s all tags) (hadd : ∀ x y : F, x + y = y + x) {o : Expr F × List Nat}
    (ho : OperandOK lib s all tags o) :
    Pushes lib s all tags o.1.tokens o.1.count o.1.hasData fun k i => Stands lib s all k o i := by
  have hnames : ∀ t ∈ opNames, t ∉ tags ∧ lib.pf t = none := fun t ht => hr.names t (by
    have : ∀ t ∈ opNames, t ∈ arities.map Prod.fst := by decide
    exact this t ht)
  refine ⟨expr_tokens_ok ho.leaves, fun st => ?_⟩
  obtain ⟨st', L, h1, h2, h3, h4⟩ := run_many hr.cmp ⟨hadd, hr.min, hr.max⟩ hnames [o]
    (fun p hp => by rw [List.mem_singleton.1 hp]; exact ho) st
  obtain ⟨items, _, h5, h6, rfl⟩ := List.forall₂_cons_left_iff.1 h3
  obtain rfl := List.forall₂_nil_left_iff.1 h6
  refine ⟨st', items, by simpa using h1, by simpa using h2, h5.1.2.1, fun k => ?_, fun h => h4 (by simpa using h)⟩
  obtain ⟨ins, e1, e2⟩ := pick_many k h3
  obtain ⟨i, _, e3, e4, rfl⟩ := List.forall₂_cons_left_iff.1 e2
  rw [Space.mapM_cons_ok] at e1
  obtain ⟨j, js, e5, -, e6⟩ := e1
  obtain rfl := (List.cons.inj e6).1
  exact ⟨_, e5, e3⟩

omit [LinearOrder F] [Add F] [Sub F] [Mul F] [Div F] [Zero F] [IntCast F] in
theorem pickItem_one (k : Nat) (i : Item F) : pickItem k [i] = .ok i := by
  simp [pickItem]

omit [Add F] [Sub F] [Mul F] [Div F] [Zero F] in
theorem literal_data {t : List Char} {v : EvVal F} (h : Literal lib tags t v) (oa : Bool) :
    data lib s tags oa t = .ok (some ([⟨none, v, {}⟩], none)) := by
  cases h with
  | number h1 h2 h3 h4 =>
    obtain ⟨p1, p2, p3, p4⟩ := h4
    have hs : (splitOn '[' t).headD [] = t := by rw [splitOn_notMem p2]; rfl
    have a1 : ¬ (t.head? = some 'f' ∨ (splitOn '[' t).headD [] ∈ tags) := by rw [hs]; simp [h3.1, h3.2]
    have a2 : ¬ ('(' ∈ t ∨ '[' ∈ t) := by simp [p1, p2]
    have a3 : ¬ (':' ∈ t ∨ ',' ∈ t) := by simp [p3, p4]
    simp only [data, if_neg a1, if_neg a2, if_neg a3, h1, pure, Except.pure]
  | text h1 h2 h3 h4 =>
    have hs : (splitOn '[' t).headD [] = t := by rw [splitOn_notMem h4.2]; rfl
    have a1 : ¬ (t.head? = some 'f' ∨ (splitOn '[' t).headD [] ∈ tags) := by rw [hs]; simp [h3.1, h3.2]
    have a2 : ¬ ('(' ∈ t ∨ '[' ∈ t) := by simp [h4.1, h4.2]
    simp only [data, if_neg a1, if_neg a2, if_pos h1, pure, Except.pure]
  | python h1 h2 h3 h4 =>
    have a1 : ¬ (t.head? = some 'f' ∨ (splitOn '[' t).headD [] ∈ tags) := not_or.2 h4
    simp only [data, if_neg a1, if_pos h1, h2, bind, Except.bind, pure, Except.pure]

theorem pushes_literal {t : List Char} {v : EvVal F} (h : Literal lib tags t v) :
    Pushes lib s all tags [t] 1 false fun _ i => i = ⟨none, v, {}⟩ := by
  refine ⟨fun p hp => ?_, fun st => ⟨{ st with stack := [⟨none, v, {}⟩] :: st.stack },
    [⟨none, v, {}⟩], ?_, rfl, rfl, fun k => ⟨_, pickItem_one k _, rfl⟩, ?_⟩⟩
  · rw [List.mem_singleton.1 hp]
    cases h <;> assumption
  · simp only [List.foldlM_cons, List.foldlM_nil, token, literal_data h, bind, Except.bind, pure, Except.pure]
  · rintro (h | h)
    · exact h
    · simp at h

/-- An operand of an operator. -/
structure Opd (F : Type) where
  ts : List (List Char)
  n : Nat
  hd : Bool
  P : Nat → Item F → Prop

/-- The words push the operand. -/
def Opd.OK (lib : Lib F) (s : Space F) (all : Bool) (tags : List Tag) (o : Opd F) : Prop :=
  Pushes lib s all tags o.ts o.n o.hd o.P

theorem run_opds : ∀ (os : List (Opd F)), (∀ o ∈ os, o.OK lib s all tags) → ∀ st : St F,
    ∃ st' L, (os.flatMap fun o => o.ts).foldlM (token lib s tags (!all)) st = .ok st' ∧ st'.stack = L.reverse ++ st.stack ∧
      List.Forall₂ (fun (o : Opd F) items => items.length = o.n ∧ ∀ k, ∃ i, pickItem k items = .ok i ∧ o.P k i) os L ∧
      (st.id.isSome ∨ os.any (·.hd) = true → st'.id.isSome)
  | [], _, st => ⟨st, [], rfl, rfl, .nil, by simp⟩
  | o :: os, h, st => by
    obtain ⟨-, h1⟩ := h o (by simp)
    obtain ⟨st1, items, a1, a2, a3, a4, a5⟩ := h1 st
    obtain ⟨st2, L, c1, c2, c3, c4⟩ := run_opds os (fun o ho => h o (by simp [ho])) st1
    refine ⟨st2, items :: L, ?_, by rw [c2, a2]; simp, .cons ⟨a3, a4⟩ c3, ?_⟩
    · rw [List.flatMap_cons, Space.foldlM_append_ok, a1]
      exact c1
    · rw [List.any_cons, Bool.or_eq_true]
      rintro (hi | hp | hp)
      · exact c4 (.inl (a5 (.inl hi)))
      · exact c4 (.inl (a5 (.inr hp)))
      · exact c4 (.inr hp)

omit [LinearOrder F] [Add F] [Sub F] [Mul F] [Div F] [Zero F] [IntCast F] in
theorem pick_opds (k : Nat) : ∀ {os : List (Opd F)} {L : List (List (Item F))},
    List.Forall₂ (fun (o : Opd F) items => items.length = o.n ∧ ∀ k, ∃ i, pickItem k items = .ok i ∧ o.P k i) os L →
    ∃ ins, L.mapM (pickItem k) = .ok ins ∧ List.Forall₂ (fun (o : Opd F) i => o.P k i) os ins
  | _, _, .nil => ⟨[], rfl, .nil⟩
  | _, _, .cons (a := o) (b := items) h hs => by
    obtain ⟨ins, e1, e2⟩ := pick_opds k hs
    obtain ⟨i, hi, hd⟩ := h.2 k
    exact ⟨i :: ins, by rw [Space.mapM_cons_ok]; exact ⟨i, ins, hi, e1, rfl⟩, .cons hd e2⟩

theorem foldl_max_pos {l : List Nat} {a : Nat} (h : 0 < a ∨ ∃ x ∈ l, 0 < x) : 0 < l.foldl max a := by
  induction l generalizing a with
  | nil => simpa using h
  | cons y ys ih =>
    rw [List.foldl_cons]
    apply ih
    rcases h with h | ⟨x, hx, h⟩
    · left; omega
    · rcases List.mem_cons.1 hx with rfl | hx
      · left; omega
      · exact .inr ⟨x, hx, h⟩

/-- An operator applied to its operands pushes its result. -/
theorem pushes_op (hr : EvReady lib s all tags) {op : List Char} {f : EvCmd.Func F} {os : List (Opd F)}
    (hop : cmds lib.fn op = some (os.length, f)) (hos : ∀ o ∈ os, o.OK lib s all tags) (hne : os ≠ [])
    {R : Nat → Item F → Prop}
    (hR : ∀ k ins, List.Forall₂ (fun (o : Opd F) i => o.P k i) os ins →
      ∃ gr v, f (ins.reverse.map (·.grid)) (ins.reverse.map (·.val)) = .ok (gr, v) ∧ ∀ c, R k ⟨gr, v, c⟩) :
    Pushes lib s all tags ((os.flatMap fun o => o.ts) ++ [op]) ((os.map (·.n)).foldl max 0) (os.any (·.hd))
      fun k i => R (min k ((os.map (·.n)).foldl max 0 - 1)) i := by
  have hmem : op ∈ arities.map Prod.fst := List.mem_map.2 ⟨_, mem_of_lookup' (cmds_arity lib.fn hop), rfl⟩
  have hopn : OpName lib tags op := by
    refine ⟨(hr.names op hmem).1, (hr.names op hmem).2, ?_⟩
    have hall : ∀ t ∈ arities.map Prod.fst, t.head? ≠ some 'f' ∧ '(' ∉ t ∧ '[' ∉ t ∧ ':' ∉ t ∧ ',' ∉ t := by decide
    exact hall op hmem
  have hopt : op ≠ [] ∧ ' ' ∉ op := by
    have hall : ∀ t ∈ arities.map Prod.fst, t ≠ [] ∧ ' ' ∉ t := by decide
    exact hall op hmem
  refine ⟨fun p hp => ?_, fun st => ?_⟩
  · rcases List.mem_append.1 hp with hp | hp
    · obtain ⟨o, ho, hpo⟩ := List.mem_flatMap.1 hp
      exact (hos o ho).1 p hpo
    · rw [List.mem_singleton.1 hp]; exact hopt
  obtain ⟨st1, L, h1, h2, h3, h4⟩ := run_opds os hos st
  have hlen : L.length = os.length := h3.length_eq.symm
  have hmax : (L.reverse.map List.length).foldl max 0 = (os.map (·.n)).foldl max 0 := by
    rw [List.map_reverse, foldl_max_reverse]
    congr 1
    clear * - h3
    induction h3 with
    | nil => rfl
    | cons h _ ih => simp [ih, h.1]
  have hpos : 0 < (os.map (·.n)).foldl max 0 := by
    apply foldl_max_pos
    right
    obtain ⟨o, os', rfl⟩ := List.exists_cons_of_ne_nil hne
    obtain ⟨items, _, a1, -, -⟩ := List.forall₂_cons_left_iff.1 h3
    refine ⟨o.n, by simp, ?_⟩
    obtain ⟨i, hi, -⟩ := a1.2 0
    rw [← a1.1]
    cases items with
    | nil => simp [pickItem] at hi
    | cons => simp
  have hstep : ∀ k, k < (os.map (·.n)).foldl max 0 → ∃ b, applyAt lib f L.reverse k = .ok b ∧ R k b := by
    intro k _
    obtain ⟨ins, e1, e2⟩ := pick_opds k (List.forall₂_reverse_iff.2 h3)
    have e3 : List.Forall₂ (fun (o : Opd F) i => o.P k i) os ins.reverse := by
      have := List.forall₂_reverse_iff.2 e2
      rwa [List.reverse_reverse] at this
    obtain ⟨gr, v, e4, e5⟩ := hR k ins.reverse e3
    rw [List.reverse_reverse] at e4
    obtain ⟨m, hm, -⟩ := mergeMeta_ok lib.cmp (ins.map fun i => ctxDict i.ctx)
    refine ⟨⟨gr, v, ofDict m⟩, ?_, e5 (ofDict m)⟩
    simp only [applyAt, e1, bind, Except.bind, e4, hm, pure, Except.pure]
  obtain ⟨r, r1, r2, r3⟩ := mapM_range _ hstep
  have hcmd : command lib op st1.stack = .ok (some (r :: st.stack)) := by
    simp only [command, hop, h2]
    rw [if_neg (by simp [hlen]), List.take_append_of_le_length (by simp [hlen]), List.take_of_length_le (by simp [hlen]),
      List.drop_left' (by simp [hlen]), hmax]
    simp only [r1, bind, Except.bind, pure, Except.pure]
  refine ⟨{ st1 with stack := r :: st.stack }, r, ?_, rfl, r2, fun k => ?_, fun h => h4 h⟩
  · rw [Space.foldlM_append_ok, h1]
    simp only [List.foldlM_cons, List.foldlM_nil, token, data_op hopn, hcmd, bind, Except.bind, pure, Except.pure]
  · obtain ⟨b, hb, hRb⟩ := r3 (min k ((os.map (·.n)).foldl max 0 - 1)) (by omega)
    exact ⟨b, by simp only [pickItem, r2, hb], hRb⟩

/-- A chain whose words push one operand: the command adds its items. -/
theorem ev_of_pushes (hr : EvReady lib s all tags) {ts : List (List Char)} {n : Nat} {P : Nat → Item F → Prop}
    (hp : Pushes lib s all tags ts n true P) (R : Nat → GData F → Prop)
    (hR : ∀ k i, k < n → P k i → ∀ d : GData F, ∃ d', pushItem d i = .ok d' ∧ R k d' ∧ d'.tag = d.tag ∧ d'.status = d.status)
    (T : Tag) (hT : T ≠ []) (label : Option (List Char)) :
    ∃ s', ev lib (joinWith ' ' ts) (some T) label all s = .ok s' ∧ AddsUnder s s' T n R := by
  obtain ⟨hw, hrun⟩ := hp
  obtain ⟨st, r, h1, h2, h3, h4, h5⟩ := hrun {}
  have htok := tokens_joinWith hw
  obtain ⟨⟨nm, ix⟩, hid⟩ := Option.isSome_iff_exists.1 (h5 (.inr rfl))
  have hget : ∀ k, k < n → ∃ i, r[k]? = some i ∧ P k i := by
    intro k hk
    obtain ⟨i, e1, e2⟩ := h4 k
    refine ⟨i, ?_, e2⟩
    simp only [pickItem, h3, show min k (n - 1) = k by omega] at e1
    split at e1
    · cases e1; assumption
    · cases e1
  obtain ⟨c, cs, rfl⟩ : ∃ c cs, T = c :: cs := by
    cases T with
    | nil => exact absurd rfl hT
    | cons c cs => exact ⟨c, cs, rfl⟩
  have hall : ∀ i ∈ r, ∃ d, pushItem (GData.new (c :: cs) (label.getD (joinWith ' ' ts)) i.ctx) i = .ok d := by
    intro i hi
    obtain ⟨k, hk⟩ := List.getElem?_of_mem hi
    have hkl := (List.getElem?_eq_some_iff.1 hk).1
    obtain ⟨j, hj, hj2⟩ := hget k (by rw [← h3]; exact hkl)
    rw [hk] at hj
    obtain rfl := Option.some.inj hj
    obtain ⟨d', hp, -⟩ := hR k i (by rw [← h3]; exact hkl) hj2 (GData.new (c :: cs) (label.getD (joinWith ' ' ts)) i.ctx)
    exact ⟨d', hp⟩
  obtain ⟨s', hs'⟩ := foldlM_addStep_ok r s hall
  obtain ⟨new, q1, q2, q3, q4, q5⟩ := foldlM_addStep r hs'
  refine ⟨s', ?_, new, q1, by rw [q2, h3], fun k hk => ?_, q4, by rw [q5, h3]⟩
  · have hnum : ¬ (st.num = 1 ∧ (some (c :: cs) : Option (List Char)) = none) := by simp
    simp only [ev, hr.known, htok, h1, bind, Except.bind, h2, hid, if_neg hnum]
    exact hs'
  · obtain ⟨i, hi, hi2⟩ := hget k hk
    obtain ⟨d, hd, hpush⟩ := q3 k i hi
    obtain ⟨d', p1, p2, p3, p4⟩ := hR k i hk hi2 (GData.new (c :: cs) (label.getD (joinWith ' ' ts)) i.ctx)
    rw [hpush] at p1
    obtain rfl := Except.ok.inj p1
    exact ⟨d, hd, p2, p3, p4⟩

theorem Pushes.mono {ts : List (List Char)} {n : Nat} {hd : Bool} {P Q : Nat → Item F → Prop}
    (h : Pushes lib s all tags ts n hd P) (hPQ : ∀ k i, P k i → Q k i) : Pushes lib s all tags ts n hd Q :=
  ⟨h.1, fun st => by
    obtain ⟨st', items, h1, h2, h3, h4, h5⟩ := h.2 st
    exact ⟨st', items, h1, h2, h3, fun k => by obtain ⟨i, e1, e2⟩ := h4 k; exact ⟨i, e1, hPQ k i e2⟩, h5⟩⟩

theorem Pushes.pos {ts : List (List Char)} {n : Nat} {hd : Bool} {P : Nat → Item F → Prop}
    (h : Pushes lib s all tags ts n hd P) : 0 < n := by
  obtain ⟨st', items, -, -, h3, h4, -⟩ := h.2 {}
  obtain ⟨i, hi, -⟩ := h4 0
  rw [← h3]
  cases items with
  | nil => simp [pickItem] at hi
  | cons => simp

/-- An operator with one operand. -/
theorem pushes_op1 (hr : EvReady lib s all tags) {op : List Char} {f : EvCmd.Func F} (hop : cmds lib.fn op = some (1, f))
    {ts : List (List Char)} {n : Nat} {hd : Bool} {P R : Nat → Item F → Prop} (hp : Pushes lib s all tags ts n hd P)
    (hR : ∀ k i, P k i → ∃ gr v, f [i.grid] [i.val] = .ok (gr, v) ∧ ∀ c, R k ⟨gr, v, c⟩) :
    Pushes lib s all tags (ts ++ [op]) n hd fun k i => R (min k (n - 1)) i := by
  have := pushes_op hr (op := op) (f := f) (os := [⟨ts, n, hd, P⟩]) (R := R) hop
    (fun o ho => by rw [List.mem_singleton.1 ho]; exact hp) (by simp) fun k ins hins => ?_
  · simpa using this
  · obtain ⟨i, _, h1, h2, rfl⟩ := List.forall₂_cons_left_iff.1 hins
    obtain rfl := List.forall₂_nil_left_iff.1 h2
    exact hR k i h1

/-- An operator with a second operand that is a literal. -/
theorem pushes_op2 (hr : EvReady lib s all tags) {op : List Char} {f : EvCmd.Func F} (hop : cmds lib.fn op = some (2, f))
    {ts : List (List Char)} {n : Nat} {hd : Bool} {P R : Nat → Item F → Prop} (hp : Pushes lib s all tags ts n hd P)
    {t : List Char} {v : EvVal F} (ht : Literal lib tags t v)
    (hR : ∀ k i, P k i → ∃ gr w, f [none, i.grid] [v, i.val] = .ok (gr, w) ∧ ∀ c, R k ⟨gr, w, c⟩) :
    Pushes lib s all tags (ts ++ [t, op]) n hd fun k i => R (min k (n - 1)) i := by
  have hn := hp.pos
  have := pushes_op hr (op := op) (f := f) (os := [⟨ts, n, hd, P⟩, ⟨[t], 1, false, fun _ i => i = ⟨none, v, {}⟩⟩]) (R := R) hop
    (fun o ho => by
      simp only [List.mem_cons, List.not_mem_nil, or_false] at ho
      rcases ho with rfl | rfl
      · exact hp
      · exact pushes_literal ht) (by simp) fun k ins hins => ?_
  · simpa [max_eq_left (show 1 ≤ n from hn)] using this
  · obtain ⟨i, _, h1, h2, rfl⟩ := List.forall₂_cons_left_iff.1 hins
    obtain ⟨j, _, rfl, h3, rfl⟩ := List.forall₂_cons_left_iff.1 h2
    obtain rfl := List.forall₂_nil_left_iff.1 h3
    exact hR k i h1

/-- An operator with two further operands that are literals. -/
theorem pushes_op3 (hr : EvReady lib s all tags) {op : List Char} {f : EvCmd.Func F} (hop : cmds lib.fn op = some (3, f))
    {ts : List (List Char)} {n : Nat} {hd : Bool} {P R : Nat → Item F → Prop} (hp : Pushes lib s all tags ts n hd P)
    {t u : List Char} {v w : EvVal F} (ht : Literal lib tags t v) (hu : Literal lib tags u w)
    (hR : ∀ k i, P k i → ∃ gr r, f [none, none, i.grid] [w, v, i.val] = .ok (gr, r) ∧ ∀ c, R k ⟨gr, r, c⟩) :
    Pushes lib s all tags (ts ++ [t, u, op]) n hd fun k i => R (min k (n - 1)) i := by
  have hn := hp.pos
  have := pushes_op hr (op := op) (f := f) (os := [⟨ts, n, hd, P⟩, ⟨[t], 1, false, fun _ i => i = ⟨none, v, {}⟩⟩,
      ⟨[u], 1, false, fun _ i => i = ⟨none, w, {}⟩⟩]) (R := R) hop
    (fun o ho => by
      simp only [List.mem_cons, List.not_mem_nil, or_false] at ho
      rcases ho with rfl | rfl | rfl
      · exact hp
      · exact pushes_literal ht
      · exact pushes_literal hu) (by simp) fun k ins hins => ?_
  · simpa [max_eq_left (show 1 ≤ n from hn)] using this
  · obtain ⟨i, _, h1, h2, rfl⟩ := List.forall₂_cons_left_iff.1 hins
    obtain ⟨j, _, rfl, h3, rfl⟩ := List.forall₂_cons_left_iff.1 h2
    obtain ⟨j', _, rfl, h4, rfl⟩ := List.forall₂_cons_left_iff.1 h3
    obtain rfl := List.forall₂_nil_left_iff.1 h4
    exact hR k i h1

/-- The results of the last operator are added. -/
theorem ev_of_op (hr : EvReady lib s all tags) {ts : List (List Char)} {n : Nat} {P : Nat → Item F → Prop}
    (hp : Pushes lib s all tags ts n true fun k i => P (min k (n - 1)) i) (R : Nat → GData F → Prop)
    (hR : ∀ k i, P k i → ∀ d : GData F, ∃ d', pushItem d i = .ok d' ∧ R k d' ∧ d'.tag = d.tag ∧ d'.status = d.status)
    (T : Tag) (hT : T ≠ []) (label : Option (List Char)) :
    ∃ s', ev lib (joinWith ' ' ts) (some T) label all s = .ok s' ∧ AddsUnder s s' T n R :=
  ev_of_pushes hr hp R (fun k i hk h d => hR k i (by rwa [show min k (n - 1) = k by omega] at h) d) T hT label

/-- The item is a field on a grid. -/
def FieldItem (axes : List (List F)) (cells : List Nat) (m : Nat) (f : List Nat → Nat → F) (i : Item F) : Prop :=
  i.grid = some (axes.map NArr.ofList) ∧ ∃ a, i.val = .arr a ∧ IsField a cells m f

/-- An expression on a common grid. -/
theorem pushes_field (hr : EvReady lib s all tags) (hadd : ∀ x y : F, x + y = y + x) {A : Expr F} {cells : List Nat} {m : Nat}
    (hA : OperandOK lib s all tags (A, cells ++ [m])) (hd : A.hasData = true) {axes : Nat → List (List F)}
    (hG : OnGrid s all A axes) :
    Pushes lib s all tags A.tokens A.count true fun k i =>
      FieldItem (axes k) cells m (fun j c => A.num lib.fn k (j ++ [c])) i := by
  have h := pushes_expr hr hadd hA
  rw [show ((A, cells ++ [m]) : Expr F × List Nat).1.hasData = true from hd] at h
  refine h.mono fun k i ⟨D, K⟩ => ?_
  obtain ⟨a, e, t, -⟩ := id D
  obtain ⟨t1, t2, t3, -⟩ := t hd
  refine ⟨K.grid _ (uses_exists k A hA.leaves hd) fun d hu => hG k d hu, a, e, t2, t1, fun j hj c hc => ?_⟩
  have hjc := inRange_snoc_iff.2 ⟨hj, hc⟩
  rw [t3 _ hjc]; exact den_num D hjc

/-- An expression with data of shape `sh`, as an array. -/
theorem pushes_array (hr : EvReady lib s all tags) (hadd : ∀ x y : F, x + y = y + x) {A : Expr F} {sh : List Nat}
    (hA : OperandOK lib s all tags (A, sh)) (hd : A.hasData = true) {axes : Nat → List (List F)} (hG : OnGrid s all A axes) :
    Pushes lib s all tags A.tokens A.count true fun k i => i.grid = some ((axes k).map NArr.ofList) ∧
      ∃ a, i.val = .arr a ∧ a.WF ∧ a.shape = sh ∧ ∀ idx, inRange sh idx = true → a.get? idx = some (A.num lib.fn k idx) := by
  have h := pushes_expr hr hadd hA
  rw [show ((A, sh) : Expr F × List Nat).1.hasData = true from hd] at h
  refine h.mono fun k i ⟨D, K⟩ => ?_
  obtain ⟨a, e, t, -⟩ := id D
  obtain ⟨t1, t2, t3, -⟩ := t hd
  refine ⟨K.grid _ (uses_exists k A hA.leaves hd) fun d hu => hG k d hu, a, e, t2, t1, fun idx hi => ?_⟩
  rw [t3 _ hi]; exact den_num D hi

omit [Add F] [Sub F] [Mul F] [Div F] [Zero F] [IntCast F] in
theorem goodGrid_axes {sh : List Nat} : ∀ {axes : List (List F)}, axes.length + 1 = sh.length → (∀ x ∈ axes, x ≠ []) →
    GoodGrid sh (axes.map NArr.ofList) := by
  intro axes hl hne
  refine ⟨by simpa using hl, ?_⟩
  rw [show sh.length - 1 = axes.length by omega]
  clear hl
  induction axes with
  | nil => exact ⟨⟨_, rfl⟩, ⟨_, rfl⟩⟩
  | cons x xs ih =>
    obtain ⟨⟨l, hl⟩, ⟨u, hu⟩⟩ := ih fun y hy => hne y (by simp [hy])
    obtain ⟨a, ha⟩ := Option.isSome_iff_exists.1 ((List.isSome_min?_iff).2 (hne x (by simp)))
    obtain ⟨b, hb⟩ := Option.isSome_iff_exists.1 ((List.isSome_max?_iff).2 (hne x (by simp)))
    constructor
    · refine ⟨a :: l, ?_⟩
      simp only [List.map_cons, List.length_cons, GData.minima, NArr.ofList, ha, bind, Except.bind, pure, Except.pure]
      rw [hl]
    · refine ⟨b :: u, ?_⟩
      simp only [List.map_cons, List.length_cons, GData.maxima, NArr.ofList, hb, bind, Except.bind, pure, Except.pure]
      rw [hu]

omit [Add F] [Sub F] [Mul F] [Div F] [Zero F] [IntCast F] in
/-- A field is added with its grid. -/
theorem push_field {axes : List (List F)} {cells : List Nat} {m : Nat} {f : List Nat → Nat → F} {i : Item F}
    (h : FieldItem axes cells m f i) (hl : axes.length = cells.length) (hne : ∀ x ∈ axes, x ≠ []) (d : GData F) :
    ∃ d', pushItem d i = .ok d' ∧ HasField d' axes cells m f ∧ d'.tag = d.tag ∧ d'.status = d.status := by
  obtain ⟨hg, a, ha, hf⟩ := h
  obtain ⟨g, v, c⟩ := i
  obtain rfl : g = _ := hg
  obtain rfl : v = _ := ha
  obtain ⟨d', p1, ⟨p2, p3⟩, p4⟩ := pushItem_good (a := a) (sh := cells ++ [m]) (by rw [hf.shape])
    (goodGrid_axes (axes := axes) (by simp [hl]) hne) d c
  exact ⟨d', p1, ⟨p3, a, p2, hf⟩, p4⟩

end
end Ev
end Pgkyl
