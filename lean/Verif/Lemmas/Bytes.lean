import Verif.Spec.GkylFormat
import Mathlib.Tactic.Ring
import Mathlib.Tactic.Linarith
/-! Lemmas about byte encodings and `np.fromfile`. -/

namespace Pgkyl

theorem leBytes_length (k n : Nat) : (leBytes k n).length = k := by
  induction k generalizing n with
  | zero => rfl
  | succ k ih => simp [leBytes, ih]

theorem leNat_leBytes (k n : Nat) : leNat (leBytes k n) = n % 256 ^ k := by
  induction k generalizing n with
  | zero => simp [leBytes, leNat, Nat.mod_one]
  | succ k ih =>
    simp only [leBytes, leNat, ih, UInt8.toNat_ofNat']
    have h := Nat.mod_mul (x := n) (a := 256) (b := 256 ^ k)
    rw [← Nat.pow_succ'] at h
    rw [h]
    omega

theorem u64_eq_leBytes (n : Nat) : Spec.u64 n = leBytes 8 n := by
  have h : ∀ m : Nat, UInt8.ofNat (m % 256) = UInt8.ofNat m := by
    intro m; apply UInt8.toNat.inj; simp
  simp [Spec.u64, leBytes, List.range_succ, h, Nat.div_div_eq_div_mul]

theorem u64_length (n : Nat) : (Spec.u64 n).length = 8 := by simp [Spec.u64]

theorem encI8_nat {n : Nat} (h : n < 2 ^ 63) : encI8 n = Spec.u64 n := by
  rw [u64_eq_leBytes, encI8]
  congr 1
  omega

theorem encI8_length (z : Int) : (encI8 z).length = 8 := leBytes_length _ _

theorem decI8_u64 {n : Nat} (h : n < 2 ^ 63) : decI8 (Spec.u64 n) = n := by
  rw [u64_eq_leBytes, decI8, leNat_leBytes]
  have : n % 256 ^ 8 = n := Nat.mod_eq_of_lt (by omega)
  rw [this, if_pos h]

theorem chunks_prefix (sz : Nat) (ws : List Word) (rest : Bytes) (n : Nat)
    (hw : ∀ w ∈ ws, w.length = sz) (hn : n ≤ ws.length) :
    chunks sz n (ws.flatten ++ rest) = ws.take n := by
  induction n generalizing ws with
  | zero => simp [chunks]
  | succ n ih =>
    cases ws with
    | nil => simp at hn
    | cons w ws =>
      have hwl : w.length = sz := hw w (by simp)
      simp only [chunks, List.flatten_cons, List.append_assoc, List.take_succ_cons]
      rw [if_neg (by simp; omega), List.take_append_of_le_length (by omega), ← hwl,
        List.take_length, List.drop_left, hwl,
        ih ws (fun v hv => hw v (by simp [hv])) (by simpa using hn)]

theorem chunks_eof (sz : Nat) (hsz : 0 < sz) (ws : List Word) (n : Nat)
    (hw : ∀ w ∈ ws, w.length = sz) (hn : ws.length ≤ n) :
    chunks sz n ws.flatten = ws := by
  induction n generalizing ws with
  | zero => cases ws with
    | nil => rfl
    | cons => simp at hn
  | succ n ih =>
    cases ws with
    | nil => simp [chunks, hsz]
    | cons w ws =>
      have hwl : w.length = sz := hw w (by simp)
      simp only [chunks, List.flatten_cons]
      rw [if_neg (by simp; omega), List.take_append_of_le_length (by omega), ← hwl,
        List.take_length, List.drop_left, hwl,
        ih ws (fun v hv => hw v (by simp [hv])) (by simpa using hn)]

theorem fromfile_prefix {f : Bytes} {sz off : Nat} {ws : List Word} {rest : Bytes} {n : Nat}
    (h : f.drop off = ws.flatten ++ rest) (hw : ∀ w ∈ ws, w.length = sz) (hn : n ≤ ws.length) :
    fromfile f sz n off = ws.take n := by
  rw [fromfile, if_neg (by omega), h]
  exact chunks_prefix sz ws rest n hw hn

theorem fromfile_all {f : Bytes} {sz off : Nat} {ws : List Word} {rest : Bytes} {n : Nat}
    (h : f.drop off = ws.flatten ++ rest) (hw : ∀ w ∈ ws, w.length = sz) (hn : ws.length = n) :
    fromfile f sz n off = ws := by
  rw [fromfile_prefix h hw (by omega), ← hn, List.take_length]

theorem fromfile_eof {f : Bytes} {sz off : Nat} {ws : List Word} {n : Nat}
    (h : f.drop off = ws.flatten) (hsz : 0 < sz) (hw : ∀ w ∈ ws, w.length = sz)
    (hn : ws.length ≤ n) : fromfile f sz n off = ws := by
  rw [fromfile, if_neg (by omega), h]
  exact chunks_eof sz hsz ws n hw hn

theorem drop_add {f a b : Bytes} {off k : Nat} (h : f.drop off = a ++ b) (hk : a.length = k) :
    f.drop (off + k) = b := by
  rw [← List.drop_drop, h, ← hk, List.drop_left]

theorem flatten_length {ws : List Word} {sz : Nat} (hw : ∀ w ∈ ws, w.length = sz) :
    ws.flatten.length = ws.length * sz := by
  induction ws with
  | nil => simp
  | cons w ws ih =>
    simp only [List.flatten_cons, List.length_append, List.length_cons]
    rw [ih (fun v hv => hw v (by simp [hv])), hw w (by simp)]; ring

theorem flatMap_u64_length (l : List Nat) : (l.flatMap Spec.u64).length = l.length * 8 := by
  rw [List.flatMap, flatten_length (sz := 8)]
  · simp
  · intro w hw; obtain ⟨n, _, rfl⟩ := List.mem_map.1 hw; exact u64_length n

theorem readI_u64 {f rest : Bytes} {off n : Nat} (h : f.drop off = Spec.u64 n ++ rest)
    (hn : n < 2 ^ 63) : readI f off = .ok n := by
  have : fromfile f 8 1 off = [Spec.u64 n] :=
    fromfile_all (n := 1) (ws := [Spec.u64 n]) (rest := rest) (by simpa using h)
      (by simp [u64_length]) rfl
  simp [readI, this, decI8_u64 hn]

theorem readIs_u64 {f rest : Bytes} {off k : Nat} {l : List Nat}
    (h : f.drop off = l.flatMap Spec.u64 ++ rest) (hl : l.length = k)
    (hn : ∀ n ∈ l, n < 2 ^ 63) : readIs f k off = l.map fun (n : Nat) => (n : Int) := by
  have : fromfile f 8 k off = l.map Spec.u64 :=
    fromfile_all (rest := rest) (by simpa [List.flatMap] using h)
      (by intro w hw; obtain ⟨n, _, rfl⟩ := List.mem_map.1 hw; exact u64_length n) (by simpa using hl)
  rw [readIs, this, List.map_map]
  apply List.map_congr_left
  intro n hn'
  simp [decI8_u64 (hn n hn')]

/-! dictionaries -/
namespace Dict
variable {V : Type}

theorem get?_set (d : Dict V) (k k' : String) (v : V) :
    (d.set k v).get? k' = if k' = k then some v else d.get? k' := by
  induction d with
  | nil =>
    simp only [set, get?]
    by_cases h : k' = k
    · simp [h]
    · simp [h, Ne.symm h]
  | cons e d ih =>
    obtain ⟨a, b⟩ := e
    simp only [set]
    by_cases ha : a = k
    · subst ha
      simp only [if_true, get?]
      by_cases h : k' = a
      · simp [h]
      · simp [h, Ne.symm h]
    · simp only [if_neg ha, get?, ih]
      by_cases h : a = k'
      · subst h; simp [ha]
      · simp [h]

theorem get?_set_self (d : Dict V) (k : String) (v : V) : (d.set k v).get? k = some v := by
  simp [get?_set]

theorem get?_set_ne (d : Dict V) {k k' : String} (v : V) (h : k' ≠ k) :
    (d.set k v).get? k' = d.get? k' := by simp [get?_set, h]

theorem mem_iff_get? (d : Dict V) (k : String) : d.mem k = true ↔ (d.get? k).isSome := by
  induction d with
  | nil => simp [mem, get?]
  | cons e d ih =>
    obtain ⟨a, b⟩ := e
    have ih' : (List.any d fun e => decide (e.1 = k)) = true ↔ (get? d k).isSome := ih
    simp only [mem, List.any_cons, Bool.or_eq_true, decide_eq_true_eq, get?, ih']
    by_cases h : a = k <;> simp [h]

theorem get?_del (d : Dict V) (k k' : String) :
    (d.del k).get? k' = if k' = k then none else d.get? k' := by
  induction d with
  | nil => simp [del, get?]
  | cons e d ih =>
    obtain ⟨a, b⟩ := e
    have ih' : get? (List.filter (fun e => decide (e.1 ≠ k)) d) k' = if k' = k then none else get? d k' := ih
    simp only [del, List.filter_cons]
    by_cases ha : a = k
    · subst ha
      simp only [ne_eq, not_true, decide_false, Bool.false_eq_true, if_false]
      rw [ih']
      by_cases h : k' = a
      · simp [h]
      · simp [h, get?, Ne.symm h]
    · simp only [ne_eq, ha, not_false_eq_true, decide_true, if_true, get?]
      rw [ih']
      by_cases h : a = k'
      · subst h; simp [ha]
      · simp [h]

end Dict

end Pgkyl
