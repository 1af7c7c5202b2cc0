import Verif.Lemmas.EvKeep
import Verif.Spec.Field
import Verif.Lemmas.CompOps
import Verif.Lemmas.StoreCmd
import Mathlib.Algebra.Field.Basic
/-! # Linear expressions of `ev` and linear operations on datasets -/

namespace Pgkyl

namespace Space
variable {F : Type}

/-- Iterations depend on the lists and the status of the datasets only. -/
theorem toList_same {s s' : Space F} (h : s'.dict = s.dict) (ha : ∀ id, s'.active id = s.active id) (tag : Option Tag)
    (enum oa : Bool) (sel : Sel) : s'.toList tag enum oa sel = s.toList tag enum oa sel := by
  have hact : s'.active = s.active := funext ha
  have ht : s'.tagsOf tag = s.tagsOf tag := by simp only [tagsOf, h]
  have hi : ∀ ix t, tagItems s' oa sel ix t = tagItems s oa sel ix t := by
    intro ix t; simp only [tagItems, lookup, h, hact]
  rw [toList_eq, toList_eq]
  simp only [ht, funext (hi _)]

theorem tagIterator_same {s s' : Space F} (h : s'.dict = s.dict) (ha : ∀ id, s'.active id = s.active id)
    (tag : Option Tag) (oa : Bool) : s'.tagIterator tag oa = s.tagIterator tag oa := by
  simp only [tagIterator, h, toList_same h ha]

/-- What an iteration yields is listed. -/
theorem toList_listed {s : Space F} {tag : Option Tag} {enum oa : Bool} {sel : Sel} {l : List (Nat × Nat)}
    (h : s.toList tag enum oa sel = .ok l) : ∀ e ∈ l, e.2 ∈ s.dict.flatMap Prod.snd := by
  rw [toList_eq] at h
  split at h
  · cases h
  · split at h
    · cases h
    · rename_i ix _
      split at h
      · cases h
      · rename_i ls hm
        obtain rfl := Except.ok.inj h
        intro e he
        obtain ⟨x, hx, hex⟩ := List.mem_flatten.1 he
        have key : ∀ (ts : List Tag) (ls : List (List (Nat × Nat))), ts.mapM (tagItems s oa sel ix) = .ok ls →
            ∀ x ∈ ls, ∀ e ∈ x, e.2 ∈ s.dict.flatMap Prod.snd := by
          intro ts
          induction ts with
          | nil =>
            intro ls hls x hx
            simp only [List.mapM_nil, pure, Except.pure, Except.ok.injEq] at hls
            subst hls; simp at hx
          | cons t ts ih =>
            intro ls hls x hx e he
            rw [mapM_cons_ok] at hls
            obtain ⟨y, ys, h1, h2, rfl⟩ := hls
            rcases List.mem_cons.1 hx with rfl | hx
            · simp only [tagItems] at h1
              split at h1
              · cases h1
              · rename_i ids hids
                split at h1
                · cases h1
                · obtain rfl := Except.ok.inj h1
                  simp only [Spec.visit, List.mem_map, List.mem_filter] at he
                  obtain ⟨⟨a, b⟩, ⟨hab, -⟩, rfl⟩ := he
                  have := List.fst_mem_of_mem_zipIdx hab
                  simp only [List.mem_filterMap] at this
                  obtain ⟨p, -, hp⟩ := this
                  exact List.mem_flatMap.2 ⟨_, mem_of_lookup hids, List.mem_of_getElem? hp⟩
            · exact ih ys h2 x hx e he
        exact key _ _ hm x hx e hex

end Space

namespace Ev
open Spec
variable {F : Type}

theorem uses_listed {s : Space F} {all : Bool} {k : Nat} {d : GData F} : ∀ (e : Expr F), e.Uses s all k d →
    ∃ id ∈ s.dict.flatMap Prod.snd, s.heap[id]? = some d
  | .leaf (.const _ _), h => h.elim
  | .leaf (.data _ _ _ _), ⟨_, en, h1, h2, h3⟩ => ⟨en.2, Space.toList_listed h1 en (List.mem_of_getElem? h2), h3⟩
  | .un _ e, h => uses_listed e h
  | .bin _ a b, h => h.elim (uses_listed a) (uses_listed b)

/-- An operation on fields that respects sums and multiples. -/
structure IsLinear [_root_.Field F] (Φ : (List Nat → Nat → F) → List Nat → Nat → F) : Prop where
  add : ∀ X Y i j, Φ (fun i j => X i j + Y i j) i j = Φ X i j + Φ Y i j
  mul : ∀ c X i j, Φ (fun i j => c * X i j) i j = c * Φ X i j

theorem IsLinear.sub [_root_.Field F] {Φ : (List Nat → Nat → F) → List Nat → Nat → F} (h : IsLinear Φ)
    (X Y : List Nat → Nat → F) (i : List Nat) (j : Nat) :
    Φ (fun i j => X i j - Y i j) i j = Φ X i j - Φ Y i j := by
  have : (fun i j => X i j - Y i j) = fun (i : List Nat) (j : Nat) => X i j + (-1) * Y i j := by
    funext i j; ring
  rw [this, h.add X (fun i j => -1 * Y i j), h.mul]
  ring

/-- The store `s'` holds, dataset by dataset, the results of the operation `Φ` on the fields of `s`. -/
structure Applied [_root_.Field F] (Φ : (List Nat → Nat → F) → List Nat → Nat → F) (cells : List Nat) (m : Nat)
    (cells' : List Nat) (m' : Nat) (s s' : Space F) : Prop where
  dict : s'.dict = s.dict
  active : ∀ id, s'.active id = s.active id
  data : ∀ id ∈ s.dict.flatMap Prod.snd, ∃ d r f v axes v', s.heap[id]? = some d ∧ s'.heap[id]? = some r ∧
    d.values = some v ∧ IsField v cells m f ∧ Rectilinear r axes v' ∧ IsField v' cells' m' (Φ f)

section
variable [_root_.Field F] [LinearOrder F] {Φ : (List Nat → Nat → F) → List Nat → Nat → F} {cells cells' : List Nat}
  {m m' : Nat} {s s' : Space F} {lib : Lib F} {all : Bool} {tags : List Tag}

theorem leaf_applied (h : Applied Φ cells m cells' m' s s') {name : Option Tag} {ix : Option (List Char)}
    {arrays : List (NArr F)} {sh : List Nat} (hok : Leaf.OK lib s all tags sh (.data name ix none arrays)) :
    ∃ arrays', Leaf.OK lib s' all tags (cells' ++ [m']) (.data name ix none arrays') ∧
      List.Forall₂ (fun a a' => ∃ f, IsField a cells m f ∧ IsField a' cells' m' (Φ f)) arrays arrays' := by
  obtain ⟨h1, h2, h3, h4, vis, h5, h6⟩ := hok
  have hlist := Space.toList_listed h5
  have key : ∀ (vis : List (Nat × Nat)) (arrays : List (NArr F)),
      List.Forall₂ (fun e a => ∃ d axes v, s.heap[e.2]? = some d ∧ Rectilinear d axes v ∧
          IsComp none v a ∧ a.shape = sh) vis arrays → (∀ e ∈ vis, e.2 ∈ s.dict.flatMap Prod.snd) →
      ∃ arrays', List.Forall₂ (fun e a => ∃ d axes v, s'.heap[e.2]? = some d ∧ Rectilinear d axes v ∧
          IsComp none v a ∧ a.shape = cells' ++ [m']) vis arrays' ∧
        List.Forall₂ (fun a a' => ∃ f, IsField a cells m f ∧ IsField a' cells' m' (Φ f)) arrays arrays' := by
    intro vis arrays hf
    induction hf with
    | nil => exact fun _ => ⟨[], .nil, .nil⟩
    | @cons e a vis arrays hea _ ih =>
      intro hl
      obtain ⟨arrays', p1, p2⟩ := ih fun e he => hl e (List.mem_cons_of_mem _ he)
      obtain ⟨d, axes, v, q1, q2, q3, -⟩ := hea
      obtain ⟨d₂, r, f, w, axes', v', r1, r2, r3, r4, r5, r6⟩ := h.data e.2 (hl e (by simp))
      rw [q1] at r1
      obtain rfl := Option.some.inj r1
      rw [q2.values] at r3
      obtain rfl := Option.some.inj r3
      simp only [IsComp] at q3
      subst q3
      exact ⟨v' :: arrays', .cons ⟨r, axes', v', r2, r5, rfl, r6.shape⟩ p1, .cons ⟨f, r4, r6⟩ p2⟩
  obtain ⟨arrays', p1, p2⟩ := key vis arrays h6 hlist
  refine ⟨arrays', ⟨h1, h2, h3, ?_, vis, ?_, p1⟩, p2⟩
  · intro e
    subst e
    exact h4 (List.forall₂_nil_right_iff.1 p2)
  · rw [Space.toList_same h.dict h.active]; exact h5

/-- The same expression over the results. -/
theorem expr_applied (hΦ : IsLinear Φ) (h : Applied Φ cells m cells' m' s s') {sh : List Nat} :
    ∀ (e : Expr F), e.Linear → e.All (Leaf.OK lib s all tags sh) →
    ∃ e' : Expr F, e'.All (Leaf.OK lib s' all tags (cells' ++ [m'])) ∧ e'.tokens = e.tokens ∧ e'.count = e.count ∧
      e'.powOK ∧ e'.hasData = true ∧ ∀ k, ∃ X : List Nat → Nat → F,
        (∀ i, inRange cells i = true → ∀ j < m, e.valueAt lib.fn k (i ++ [j]) = some (X i j)) ∧
        ∀ i, inRange cells' i = true → ∀ j < m', e'.valueAt lib.fn k (i ++ [j]) = some (Φ X i j)
  | .leaf (.const _ _), hl, _ => hl.elim
  | .leaf (.data name ix comp arrays), hl, hok => by
    simp only [Expr.Linear] at hl
    subst hl
    obtain ⟨arrays', h1, h2⟩ := leaf_applied h hok
    refine ⟨.leaf (.data name ix none arrays'), h1, rfl, h2.length_eq.symm, trivial, rfl, fun k => ?_⟩
    have hpos : 0 < arrays.length := List.length_pos_iff.2 hok.2.2.2.1
    have hk : min k (arrays.length - 1) < arrays.length := by omega
    have hk' : min k (arrays.length - 1) < arrays'.length := by rw [← h2.length_eq]; exact hk
    obtain ⟨f, f1, f2⟩ := (List.forall₂_iff_get.1 h2).2 _ hk hk'
    refine ⟨f, fun i hi j hj => ?_, fun i hi j hj => ?_⟩
    · simp only [Expr.valueAt, Leaf.valueAt, List.getElem?_eq_getElem hk, Option.bind_some]
      exact f1.get i hi j hj
    · simp only [Expr.valueAt, Leaf.valueAt, ← h2.length_eq, List.getElem?_eq_getElem hk', Option.bind_some]
      exact f2.get i hi j hj
  | .un _ _, hl, _ => hl.elim
  | .bin .add a b, hl, hok => by
    obtain ⟨a', a1, a2, a3, a4, a5, a6⟩ := expr_applied hΦ h a hl.1 hok.1
    obtain ⟨b', b1, b2, b3, b4, b5, b6⟩ := expr_applied hΦ h b hl.2 hok.2
    refine ⟨.bin .add a' b', ⟨a1, b1⟩, by simp only [Expr.tokens, a2, b2], by simp only [Expr.count, a3, b3],
      ⟨a4, b4, by simp⟩, by simp only [Expr.hasData, a5, Bool.true_or], fun k => ?_⟩
    obtain ⟨X, x1, x2⟩ := a6 k
    obtain ⟨Y, y1, y2⟩ := b6 k
    refine ⟨fun i j => X i j + Y i j, fun i hi j hj => ?_, fun i hi j hj => ?_⟩
    · simp only [Expr.valueAt, x1 i hi j hj, y1 i hi j hj]; rfl
    · simp only [Expr.valueAt, x2 i hi j hj, y2 i hi j hj, hΦ.add X Y]; rfl
  | .bin .sub a b, hl, hok => by
    obtain ⟨a', a1, a2, a3, a4, a5, a6⟩ := expr_applied hΦ h a hl.1 hok.1
    obtain ⟨b', b1, b2, b3, b4, b5, b6⟩ := expr_applied hΦ h b hl.2 hok.2
    refine ⟨.bin .sub a' b', ⟨a1, b1⟩, by simp only [Expr.tokens, a2, b2], by simp only [Expr.count, a3, b3],
      ⟨a4, b4, by simp⟩, by simp only [Expr.hasData, a5, Bool.true_or], fun k => ?_⟩
    obtain ⟨X, x1, x2⟩ := a6 k
    obtain ⟨Y, y1, y2⟩ := b6 k
    refine ⟨fun i j => X i j - Y i j, fun i hi j hj => ?_, fun i hi j hj => ?_⟩
    · simp only [Expr.valueAt, x1 i hi j hj, y1 i hi j hj]; rfl
    · simp only [Expr.valueAt, x2 i hi j hj, y2 i hi j hj, hΦ.sub X Y]; rfl
  | .bin .mul (.leaf (.const t c)) b, hl, hok => by
    have hlb : b.Linear := by
      rcases hl with hl | hl
      · exact hl.2
      · exact hl.1.elim
    obtain ⟨b', b1, b2, b3, b4, b5, b6⟩ := expr_applied hΦ h b hlb hok.2
    refine ⟨.bin .mul (.leaf (.const t c)) b', ⟨hok.1, b1⟩, by simp only [Expr.tokens, b2],
      by simp only [Expr.count, b3], ⟨trivial, b4, by simp⟩, by simp only [Expr.hasData, b5, Bool.or_true], fun k => ?_⟩
    obtain ⟨Y, y1, y2⟩ := b6 k
    refine ⟨fun i j => c * Y i j, fun i hi j hj => ?_, fun i hi j hj => ?_⟩
    · simp only [Expr.valueAt, Leaf.valueAt, y1 i hi j hj]; rfl
    · simp only [Expr.valueAt, Leaf.valueAt, y2 i hi j hj, hΦ.mul c Y]; rfl
  | .bin .mul a (.leaf (.const t c)), hl, hok => by
    have hla : a.Linear := by
      rcases hl with hl | hl
      · exact hl.2.elim
      · exact hl.1
    obtain ⟨a', a1, a2, a3, a4, a5, a6⟩ := expr_applied hΦ h a hla hok.1
    refine ⟨.bin .mul a' (.leaf (.const t c)), ⟨a1, hok.2⟩, by simp only [Expr.tokens, a2],
      by simp only [Expr.count, a3], ⟨a4, trivial, by simp⟩, by simp only [Expr.hasData, a5, Bool.true_or], fun k => ?_⟩
    obtain ⟨X, x1, x2⟩ := a6 k
    refine ⟨fun i j => c * X i j, fun i hi j hj => ?_, fun i hi j hj => ?_⟩
    · simp only [Expr.valueAt, Leaf.valueAt, x1 i hi j hj]
      exact congrArg some (mul_comm _ _)
    · simp only [Expr.valueAt, Leaf.valueAt, x2 i hi j hj, hΦ.mul c X]
      exact congrArg some (mul_comm _ _)
  | .bin .div a (.leaf (.const t c)), hl, hok => by
    obtain ⟨a', a1, a2, a3, a4, a5, a6⟩ := expr_applied hΦ h a hl.1 hok.1
    refine ⟨.bin .div a' (.leaf (.const t c)), ⟨a1, hok.2⟩, by simp only [Expr.tokens, a2],
      by simp only [Expr.count, a3], ⟨a4, trivial, by simp⟩, by simp only [Expr.hasData, a5, Bool.true_or], fun k => ?_⟩
    obtain ⟨X, x1, x2⟩ := a6 k
    refine ⟨fun i j => c⁻¹ * X i j, fun i hi j hj => ?_, fun i hi j hj => ?_⟩
    · simp only [Expr.valueAt, Leaf.valueAt, x1 i hi j hj]
      exact congrArg some (div_eq_inv_mul _ _)
    · simp only [Expr.valueAt, Leaf.valueAt, x2 i hi j hj, hΦ.mul c⁻¹ X]
      exact congrArg some (div_eq_inv_mul _ _)
  | .bin .mul (.leaf (.data _ _ _ _)) (.leaf (.data _ _ _ _)), hl, _ => by
    rcases hl with hl | hl
    · exact hl.1.elim
    · exact hl.2.elim
  | .bin .mul (.leaf (.data _ _ _ _)) (.un _ _), hl, _ => by
    rcases hl with hl | hl
    · exact hl.1.elim
    · exact hl.2.elim
  | .bin .mul (.leaf (.data _ _ _ _)) (.bin _ _ _), hl, _ => by
    rcases hl with hl | hl
    · exact hl.1.elim
    · exact hl.2.elim
  | .bin .mul (.un _ _) (.leaf (.data _ _ _ _)), hl, _ => by
    rcases hl with hl | hl
    · exact hl.1.elim
    · exact hl.2.elim
  | .bin .mul (.un _ _) (.un _ _), hl, _ => by
    rcases hl with hl | hl
    · exact hl.1.elim
    · exact hl.2.elim
  | .bin .mul (.un _ _) (.bin _ _ _), hl, _ => by
    rcases hl with hl | hl
    · exact hl.1.elim
    · exact hl.2.elim
  | .bin .mul (.bin _ _ _) (.leaf (.data _ _ _ _)), hl, _ => by
    rcases hl with hl | hl
    · exact hl.1.elim
    · exact hl.2.elim
  | .bin .mul (.bin _ _ _) (.un _ _), hl, _ => by
    rcases hl with hl | hl
    · exact hl.1.elim
    · exact hl.2.elim
  | .bin .mul (.bin _ _ _) (.bin _ _ _), hl, _ => by
    rcases hl with hl | hl
    · exact hl.1.elim
    · exact hl.2.elim
  | .bin .div _ (.leaf (.data _ _ _ _)), hl, _ => hl.2.elim
  | .bin .div _ (.un _ _), hl, _ => hl.2.elim
  | .bin .div _ (.bin _ _ _), hl, _ => hl.2.elim
  | .bin .pow _ _, hl, _ => hl.elim
  | .bin .min _ _, hl, _ => hl.elim
  | .bin .max _ _, hl, _ => hl.elim

/-- The same expression over the results, when the operation takes values from elsewhere. -/
theorem expr_pointwise {σ : List Nat → List Nat} {τ : Nat → Nat}
    (h : Applied (fun X i j => X (σ i) (τ j)) cells m cells' m' s s') {sh : List Nat} :
    ∀ (e : Expr F), e.Whole → e.All (Leaf.OK lib s all tags sh) → e.powOK →
    ∃ e' : Expr F, e'.All (Leaf.OK lib s' all tags (cells' ++ [m'])) ∧ e'.tokens = e.tokens ∧ e'.count = e.count ∧
      e'.powOK ∧ e'.hasData = e.hasData ∧ ∀ k, ∃ X : List Nat → Nat → F,
        (∀ i, inRange cells i = true → ∀ j < m, e.valueAt lib.fn k (i ++ [j]) = some (X i j)) ∧
        ∀ i, inRange cells' i = true → ∀ j < m', e'.valueAt lib.fn k (i ++ [j]) = some (X (σ i) (τ j))
  | .leaf (.const t c), _, hok, _ => ⟨.leaf (.const t c), hok, rfl, rfl, trivial, rfl, fun _ =>
      ⟨fun _ _ => c, fun _ _ _ _ => rfl, fun _ _ _ _ => rfl⟩⟩
  | .leaf (.data name ix comp arrays), hl, hok, _ => by
    simp only [Expr.Whole] at hl
    subst hl
    obtain ⟨arrays', h1, h2⟩ := leaf_applied h hok
    refine ⟨.leaf (.data name ix none arrays'), h1, rfl, h2.length_eq.symm, trivial, rfl, fun k => ?_⟩
    have hpos : 0 < arrays.length := List.length_pos_iff.2 hok.2.2.2.1
    have hk : min k (arrays.length - 1) < arrays.length := by omega
    have hk' : min k (arrays.length - 1) < arrays'.length := by rw [← h2.length_eq]; exact hk
    obtain ⟨f, f1, f2⟩ := (List.forall₂_iff_get.1 h2).2 _ hk hk'
    refine ⟨f, fun i hi j hj => ?_, fun i hi j hj => ?_⟩
    · simp only [Expr.valueAt, Leaf.valueAt, List.getElem?_eq_getElem hk, Option.bind_some]
      exact f1.get i hi j hj
    · simp only [Expr.valueAt, Leaf.valueAt, ← h2.length_eq, List.getElem?_eq_getElem hk', Option.bind_some]
      exact f2.get i hi j hj
  | .un o e, hl, hok, hp => by
    obtain ⟨e', a1, a2, a3, a4, a5, a6⟩ := expr_pointwise h e hl hok hp
    refine ⟨.un o e', a1, by simp only [Expr.tokens, a2], a3, a4, a5, fun k => ?_⟩
    obtain ⟨X, x1, x2⟩ := a6 k
    refine ⟨fun i j => o.app lib.fn (X i j), fun i hi j hj => ?_, fun i hi j hj => ?_⟩
    · simp only [Expr.valueAt, x1 i hi j hj]; rfl
    · simp only [Expr.valueAt, x2 i hi j hj]; rfl
  | .bin o a b, hl, hok, hp => by
    obtain ⟨a', a1, a2, a3, a4, a5, a6⟩ := expr_pointwise h a hl.1 hok.1 hp.1
    obtain ⟨b', b1, b2, b3, b4, b5, b6⟩ := expr_pointwise h b hl.2 hok.2 hp.2.1
    refine ⟨.bin o a' b', ⟨a1, b1⟩, by simp only [Expr.tokens, a2, b2], by simp only [Expr.count, a3, b3],
      ⟨a4, b4, by rw [a5, b5]; exact hp.2.2⟩, by simp only [Expr.hasData, a5, b5], fun k => ?_⟩
    obtain ⟨X, x1, x2⟩ := a6 k
    obtain ⟨Y, y1, y2⟩ := b6 k
    refine ⟨fun i j => o.app lib.fn (X i j) (Y i j), fun i hi j hj => ?_, fun i hi j hj => ?_⟩
    · simp only [Expr.valueAt, x1 i hi j hj, y1 i hi j hj]; rfl
    · simp only [Expr.valueAt, x2 i hi j hj, y2 i hi j hj]; rfl

omit [_root_.Field F] [LinearOrder F] in
/-- A linear expression is a proper one. -/
theorem linear_ok : ∀ (e : Expr F), e.Linear → e.powOK ∧ e.hasData = true := by
  intro e
  induction e with
  | leaf l =>
    cases l with
    | const t c => intro h; exact h.elim
    | data _ _ _ _ => intro _; exact ⟨trivial, rfl⟩
  | un _ _ _ => intro h; exact h.elim
  | bin o a b iha ihb =>
    have hnum : ∀ e : Expr F, e.IsNumber → e.powOK := by
      intro e he
      cases e with
      | leaf l => exact trivial
      | un _ _ => exact he.elim
      | bin _ _ _ => exact he.elim
    cases o with
    | add => intro h; exact ⟨⟨(iha h.1).1, (ihb h.2).1, by simp⟩, by simp [Expr.hasData, (iha h.1).2]⟩
    | sub => intro h; exact ⟨⟨(iha h.1).1, (ihb h.2).1, by simp⟩, by simp [Expr.hasData, (iha h.1).2]⟩
    | mul =>
      rintro (h | h)
      · exact ⟨⟨hnum a h.1, (ihb h.2).1, by simp⟩, by simp [Expr.hasData, (ihb h.2).2]⟩
      · exact ⟨⟨(iha h.1).1, hnum b h.2, by simp⟩, by simp [Expr.hasData, (iha h.1).2]⟩
    | div => intro h; exact ⟨⟨(iha h.1).1, hnum b h.2, by simp⟩, by simp [Expr.hasData, (iha h.1).2]⟩
    | pow => intro h; exact h.elim
    | min => intro h; exact h.elim
    | max => intro h; exact h.elim

end
end Ev
end Pgkyl
