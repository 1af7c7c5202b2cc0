import Verif.Spec.Gk
import Verif.Lemmas.StoreProps
import Mathlib.Algebra.BigOperators.Group.List.Basic
import Mathlib.Algebra.BigOperators.Group.Finset.Basic
import Mathlib.Tactic.Ring
/-!
# Lemmas on blocks, balances and frames
-/

namespace Pgkyl
namespace Gk
open Spec Space

/-! ## Blocks -/

theorem mapM_intOrErr (bs : List Int) : (bs.map pyStr).mapM intOrErr = .ok bs := by
  induction bs with
  | nil => rfl
  | cons b bs ih => rw [List.map_cons, List.mapM_cons, intOrErr_pyStr, ih]; rfl

theorem splitOn_listText {bs : List Int} (h : bs ≠ []) : splitOn ',' (listText bs) = bs.map pyStr := by
  apply splitOn_joinWith
  · simpa using h
  · intro p hp
    obtain ⟨i, _, rfl⟩ := List.mem_map.1 hp
    exact pyStr_notMem (by decide) (by decide) i

theorem comma_mem_listText {bs : List Int} (h : 2 ≤ bs.length) : ',' ∈ listText bs := by
  match bs, h with
  | a :: b :: bs, _ => simp [listText, joinWith]

theorem boundText_notMem' {c : Char} (hd : c ≠ '-') (hc : isDig c = false) (b : Option Int) : c ∉ boundText b := by
  cases b with
  | none => simp [boundText]
  | some i => exact pyStr_notMem hc hd i

theorem parseSlice_sliceText (a b c : Option Int) : parseSliceString (sliceText a b c) = .ok (a, b, c) := by
  cases c with
  | none =>
    have hs : splitOn ':' (sliceText a b none) = [boundText a, boundText b] := by
      simp only [sliceText]
      rw [splitOn_append (boundText_notMem a), splitOn_notMem (boundText_notMem b)]
    simp only [parseSliceString, hs, List.mapM_cons, List.mapM_nil, optInt_boundText, bind, Except.bind, pure,
      Except.pure]
  | some st =>
    have hs : splitOn ':' (sliceText a b (some st)) = [boundText a, boundText b, boundText (some st)] := by
      simp only [sliceText]
      rw [splitOn_append (boundText_notMem a), splitOn_append (boundText_notMem b),
        splitOn_notMem (pyStr_notMem (by decide) (by decide) st)]
      rfl
    simp only [parseSliceString, hs, List.mapM_cons, List.mapM_nil, optInt_boundText, bind, Except.bind, pure,
      Except.pure]

theorem sliceBlocks_sliceText (a b c : Option Int) (h : c.getD 1 ≠ 0) :
    sliceBlocks (sliceText a b c) = .ok ((slicePositions 10000 a b (c.getD 1)).map Int.ofNat) := by
  simp only [sliceBlocks, parseSlice_sliceText, bind, Except.bind, maxNumBlocks]
  rw [sliceIndices_eq _ _ _ _ h]
  rfl

theorem colon_mem_sliceText (a b c : Option Int) : ':' ∈ sliceText a b c := by
  cases c <;> simp [sliceText]

theorem comma_notMem_sliceText (a b c : Option Int) : ',' ∉ sliceText a b c := by
  have h : ∀ x : Option Int, ',' ∉ boundText x := boundText_notMem' (by decide) (by decide)
  cases c with
  | none => simp [sliceText, h]
  | some st =>
    have := pyStr_notMem (c := ',') (by decide) (by decide) st
    simp [sliceText, h, this]

theorem blocks_eq {k : Nat} {m : Str} {bs : List Int} (h : Blocks k m bs) :
    getBlockIndices m k = .ok bs ∧ balanceBlocks m k = .ok bs := by
  cases h with
  | single => exact ⟨rfl, rfl⟩
  | all => exact ⟨rfl, rfl⟩
  | list bs h =>
    have hc := comma_mem_listText h
    have h1 : listText bs ≠ "-10".toList := by rintro h; rw [h] at hc; revert hc; decide
    have h2 : listText bs ≠ "-1".toList := by rintro h; rw [h] at hc; revert hc; decide
    have hne : bs ≠ [] := by rintro rfl; simp at h
    constructor
    · simp only [getBlockIndices, if_neg h1, if_neg h2, if_pos hc, splitOn_listText hne, mapM_intOrErr]
    · simp only [balanceBlocks, if_neg h1, if_neg h2, if_pos hc, splitOn_listText hne, mapM_intOrErr]
  | slice a b c h =>
    have hc := colon_mem_sliceText a b c
    have h1 : sliceText a b c ≠ "-10".toList := by rintro h; rw [h] at hc; revert hc; decide
    have h2 : sliceText a b c ≠ "-1".toList := by rintro h; rw [h] at hc; revert hc; decide
    have h3 := comma_notMem_sliceText a b c
    constructor
    · simp only [getBlockIndices, if_neg h1, if_neg h2, if_neg h3, if_pos hc, sliceBlocks_sliceText a b c h]
    · simp only [balanceBlocks, if_neg h1, if_neg h2, if_neg h3, if_pos hc, sliceBlocks_sliceText a b c h]

/-! ## Arrays as functions of the time index -/

section
variable {F : Type}

def vec (n : Nat) (f : Nat → F) : List F := (List.range n).map f

@[simp] theorem vec_length (n : Nat) (f : Nat → F) : (vec n f).length = n := by simp [vec]

theorem zipWith_vec (op : F → F → F) (n : Nat) (f g : Nat → F) :
    List.zipWith op (vec n f) (vec n g) = vec n (fun i => op (f i) (g i)) := by
  apply List.ext_getElem
  · simp
  · intro i h1 h2; simp [vec]

theorem map_vec (op : F → F) (n : Nat) (f : Nat → F) : (vec n f).map op = vec n (fun i => op (f i)) := by
  simp [vec]

theorem vec_congr {n : Nat} {f g : Nat → F} (h : ∀ i < n, f i = g i) : vec n f = vec n g := by
  apply List.map_congr_left
  intro i hi
  exact h i (List.mem_range.1 hi)

theorem mapM_forall₂ {α β : Type} {f : α → Except Err β} {g : α → β} {l : List α}
    (h : ∀ a ∈ l, f a = .ok (g a)) : l.mapM f = .ok (l.map g) := mapM_ok_of_forall h

variable [_root_.Field F]

theorem addArr_vec (n : Nat) (f g : Nat → F) : addArr (vec n f) (vec n g) = .ok (vec n fun i => f i + g i) := by
  simp [addArr, zipWith_vec]

theorem subArr_vec (n : Nat) (f g : Nat → F) : subArr (vec n f) (vec n g) = .ok (vec n fun i => f i - g i) := by
  simp [subArr, zipWith_vec]

theorem mulArr_vec (n : Nat) (f g : Nat → F) : mulArr (vec n f) (vec n g) = .ok (vec n fun i => f i * g i) := by
  simp [mulArr, zipWith_vec]

theorem divArr_vec (n : Nat) (f g : Nat → F) : divArr (vec n f) (vec n g) = .ok (vec n fun i => f i / g i) := by
  simp [divArr, zipWith_vec]

theorem column_ok {n m k : Nat} (hn : 2 ≤ n) (hm : 2 ≤ m) (hk : k < m) {s : Series F} (hs : IsTable n m s) :
    column k s = .ok (vec n (tabEntry (some s) k)) := by
  obtain ⟨hl, hr⟩ := hs
  have hne : ¬(s.rows.length = 1 ∨ (s.rows.headD []).length = 1) := by
    rintro (h | h)
    · omega
    · cases h' : s.rows with
      | nil => simp [h'] at hl; omega
      | cons r rs =>
        have := hr r (by simp [h'])
        rw [h'] at h
        simp at h
        omega
  simp only [column, if_neg hne]
  rw [mapM_ok_of_forall (g := fun r => (r[k]?).getD 0)]
  · congr 1
    apply List.ext_getElem
    · simp [hl]
    · intro i h1 h2
      simp only [List.length_map] at h1
      simp [vec, tabEntry, List.getElem?_eq_getElem h1]
  · intro r hr'
    have : k < r.length := by rw [hr r hr']; exact hk
    simp [List.getElem?_eq_getElem this]

theorem onlyColumn_ok {n : Nat} {s : Series F} (hs : IsTable n 1 s) :
    onlyColumn s = .ok (vec n (tabEntry (some s) 0)) := by
  obtain ⟨hl, hr⟩ := hs
  simp only [onlyColumn]
  rw [mapM_ok_of_forall (g := fun r => (r[0]?).getD 0)]
  · congr 1
    apply List.ext_getElem
    · simp [hl]
    · intro i h1 h2
      simp only [List.length_map] at h1
      simp [vec, tabEntry, List.getElem?_eq_getElem h1]
  · intro r hr'
    match r, hr r hr' with
    | [x], _ => rfl

theorem foldl_addArr {n : Nat} : ∀ (fs : List (Nat → F)) (f : Nat → F),
    (fs.map (vec n)).foldlM addArr (vec n f) = .ok (vec n fun i => f i + (fs.map (· i)).sum)
  | [], f => by simp only [List.map_nil, List.sum_nil, add_zero]; rfl
  | g :: fs, f => by
    rw [List.map_cons, List.foldlM_cons, addArr_vec]
    simp only [bind, Except.bind]
    rw [foldl_addArr fs]
    simp [add_assoc]

theorem termOf_ok {n m k : Nat} (hn : 2 ≤ n) (hm : 2 ≤ m) (hk : k < m) {fd : Series F} {src : Option (Series F)}
    {bfl : List (Series F)} (h1 : IsTable n m fd) (h2 : ∀ s, src = some s → IsTable n m s)
    (h3 : ∀ s ∈ bfl, IsTable n m s) :
    termOf k fd src bfl = .ok
      { timeFdot := fd.time, fdot := vec n (tabEntry (some fd) k), timeSrc := src.map (·.time),
        src := vec n (tabEntry src k), timeBflux := bfl.map (·.time),
        bflux := vec n (fun i => (bfl.map fun s => tabEntry (some s) k i).sum) } := by
  have hz : (vec n (tabEntry (some fd) k)).map (fun x => 0 * x) = vec n (fun _ => (0 : F)) := by
    rw [map_vec]; simp
  have hbs : bfl.mapM (column k) = .ok (bfl.map fun s => vec n (tabEntry (some s) k)) :=
    mapM_ok_of_forall fun s hs => column_ok hn hm hk (h3 s hs)
  have hbf : ∀ (b : Series F) (bs : List (Series F)),
      (bs.map fun s => vec n (tabEntry (some s) k)).foldlM addArr (vec n (tabEntry (some b) k)) =
        (.ok (vec n (fun i => ((b :: bs).map fun s => tabEntry (some s) k i).sum)) : Except Err (List F)) := by
    intro b bs
    have := foldl_addArr (n := n) (bs.map fun s => tabEntry (some s) k) (tabEntry (some b) k)
    simp only [List.map_map] at this
    simp only [Function.comp_def] at this
    rw [this]
    simp
  have hz' : (fun (_ : Nat) => (0 : F)) = tabEntry (none : Option (Series F)) k := rfl
  simp only [termOf, column_ok hn hm hk h1, bind, Except.bind, hbs, pure, Except.pure]
  cases src with
  | none =>
    cases bfl with
    | nil => simp only [List.map_nil, hz, List.sum_nil, hz']
    | cons b bs => simp only [List.map_cons, hz, hz', hbf]
  | some s =>
    simp only [column_ok hn hm hk (h2 s rfl)]
    cases bfl with
    | nil => simp only [List.map_nil, hz, List.sum_nil]
    | cons b bs => simp only [List.map_cons, hbf]

/-! ## Sums over blocks and species -/

/-- What a term of `n` times says. -/
structure TermIs (n : Nat) (fd sr bf : Nat → F) (t : Term F) : Prop where
  fdot : t.fdot = vec n fd
  src : t.src = vec n sr
  bflux : t.bflux = vec n bf

structure SumsIs (n : Nat) (fd sr bf : Nat → F) (t : Term F) (s : Sums F) : Prop where
  fdot : s.fdot = some (vec n fd)
  src : s.src = some (vec n sr)
  bflux : s.bflux = some (vec n bf)
  last : s.last = some t

theorem Sums.add_first {n : Nat} {fd sr bf : Nat → F} {t : Term F} (h : TermIs n fd sr bf t) :
    ∃ s, Sums.add ({} : Sums F) t = .ok s ∧ SumsIs n fd sr bf t s ∧ s.fieldDot = none := by
  refine ⟨{ fdot := some t.fdot, src := some t.src, bflux := some t.bflux, last := some t }, rfl, ?_, rfl⟩
  exact ⟨by rw [h.fdot], by rw [h.src], by rw [h.bflux], rfl⟩

theorem Sums.add_next {n : Nat} {fd sr bf fd' sr' bf' : Nat → F} {t t' : Term F} {s : Sums F}
    (hs : SumsIs n fd sr bf t s) (h : TermIs n fd' sr' bf' t') :
    ∃ s', s.add t' = .ok s' ∧ SumsIs n (fun i => fd i + fd' i) (fun i => sr i + sr' i) (fun i => bf i + bf' i) t' s' ∧
      s'.fieldDot = s.fieldDot := by
  refine ⟨{ s with
    fdot := some (vec n fun i => fd i + fd' i)
    src := some (vec n fun i => sr i + sr' i)
    bflux := some (vec n fun i => bf i + bf' i)
    last := some t' }, ?_, ⟨rfl, rfl, rfl, rfl⟩, rfl⟩
  simp only [Sums.add, hs.fdot, hs.src, hs.bflux, h.fdot, h.src, h.bflux, accumulate, addArr_vec, bind, Except.bind,
    pure, Except.pure]

theorem foldlM_add {ι : Type} {n : Nat} {g : ι → Except Err (Term F)} {fd sr bf : ι → Nat → F} {t : ι → Term F} :
    ∀ (l : List ι), (∀ b ∈ l, g b = .ok (t b) ∧ TermIs n (fd b) (sr b) (bf b) (t b)) →
      ∀ (s : Sums F) (fd0 sr0 bf0 : Nat → F) (t0 : Term F), SumsIs n fd0 sr0 bf0 t0 s →
      ∃ s', l.foldlM (fun (s : Sums F) b => do s.add (← g b)) s = .ok s' ∧
        SumsIs n (fun i => fd0 i + (l.map fun b => fd b i).sum) (fun i => sr0 i + (l.map fun b => sr b i).sum)
          (fun i => bf0 i + (l.map fun b => bf b i).sum) ((l.map t).getLast?.getD t0) s' ∧
        s'.fieldDot = s.fieldDot
  | [], _, s, fd0, sr0, bf0, t0, hs => ⟨s, rfl, by simpa using hs, rfl⟩
  | b :: l, h, s, fd0, sr0, bf0, t0, hs => by
    obtain ⟨hg, ht⟩ := h b (by simp)
    obtain ⟨s1, e1, h1, f1⟩ := Sums.add_next hs ht
    obtain ⟨s2, e2, h2, f2⟩ := foldlM_add l (fun b hb => h b (by simp [hb])) s1 _ _ _ _ h1
    refine ⟨s2, ?_, ?_, by rw [f2, f1]⟩
    · rw [List.foldlM_cons]
      simp only [hg, bind, Except.bind, e1]
      exact e2
    · have : ((b :: l).map t).getLast?.getD t0 = (l.map t).getLast?.getD (t b) := by
        rw [List.map_cons, List.getLast?_cons]; rfl
      rw [this]
      simpa [add_assoc] using h2

theorem foldlM_add_all {ι : Type} {n : Nat} {g : ι → Except Err (Term F)} {fd sr bf : ι → Nat → F} {t : ι → Term F}
    {l : List ι} (hne : l ≠ []) (h : ∀ b ∈ l, g b = .ok (t b) ∧ TermIs n (fd b) (sr b) (bf b) (t b)) :
    ∃ s, l.foldlM (fun (s : Sums F) b => do s.add (← g b)) {} = .ok s ∧
      SumsIs n (fun i => (l.map fun b => fd b i).sum) (fun i => (l.map fun b => sr b i).sum)
        (fun i => (l.map fun b => bf b i).sum) (t (l.getLast hne)) s ∧ s.fieldDot = none := by
  cases l with
  | nil => exact absurd rfl hne
  | cons b l =>
    obtain ⟨hg, ht⟩ := h b (by simp)
    obtain ⟨s1, e1, h1, f1⟩ := Sums.add_first ht
    obtain ⟨s2, e2, h2, f2⟩ := foldlM_add l (fun b hb => h b (by simp [hb])) s1 _ _ _ _ h1
    refine ⟨s2, ?_, ?_, by rw [f2, f1]⟩
    · rw [List.foldlM_cons]
      simp only [hg, bind, Except.bind, e1]
      exact e2
    · have : (l.map t).getLast?.getD (t b) = t ((b :: l).getLast hne) := by
        rcases List.eq_nil_or_concat l with rfl | ⟨l', x, rfl⟩
        · simp
        · simp
      rw [← this]
      simpa using h2

end

/-! ## File names -/

theorem replaceStar_noStar {s : Str} (h : '*' ∉ s) (r : Str) : replaceStar s r = s := by
  induction s with
  | nil => rfl
  | cons c s ih =>
    simp only [List.mem_cons, not_or] at h
    have hc : c ≠ '*' := fun e => h.1 e.symm
    simp only [replaceStar, List.flatMap_cons, if_neg hc] at ih ⊢
    rw [ih h.2]
    rfl

theorem replaceStar_append (s t r : Str) : replaceStar (s ++ t) r = replaceStar s r ++ replaceStar t r := by
  simp [replaceStar]

theorem blockPrefix_eq {o : Files} (hp : '*' ∉ o.path) (hn : '*' ∉ o.name) (multib : Str) (b : Nat) (rest : String) :
    blockPrefix o multib b ++ rest.toList =
      blockFile o.path o.name (decide (multib ≠ "-10".toList)) b rest := by
  by_cases h : multib = "-10".toList
  · have h1 : '*' ∉ o.path ++ '/' :: o.name ++ "-".toList := by
      simp only [List.mem_append, List.mem_cons, not_or]
      exact ⟨⟨hp, by decide, hn⟩, by decide⟩
    simp only [blockPrefix, prefixStar, if_pos h]
    rw [replaceStar_noStar h1]
    simp [blockFile, h]
  · have h1 : '*' ∉ o.path ++ '/' :: o.name := by
      simp only [List.mem_append, List.mem_cons, not_or]
      exact ⟨hp, by decide, hn⟩
    simp only [blockPrefix, prefixStar, if_neg h]
    rw [replaceStar_append, replaceStar_noStar h1]
    have h2 : replaceStar "_b*-".toList (pyStr b) = "_b".toList ++ dec b ++ "-".toList := by
      rw [pyStr_ofNat]
      simp [replaceStar, dec]
    rw [h2, blockFile, decide_eq_true h, if_pos rfl]
    simp

end Gk
end Pgkyl
