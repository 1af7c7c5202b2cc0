import Verif.Spec.Echo
import Verif.Props.DataSpace
/-! # C122: `extractinput` and `pr` -/

namespace Pgkyl
open Spec Echo Space

theorem Echo.a2b_skip (cs : Text) : ∀ pos left pads, a2b pos left pads cs = a2b pos left pads (cs.filter (· ≠ '\n')) := by
  induction cs with
  | nil => intro _ _ _; rfl
  | cons c cs ih =>
    intro pos left pads
    by_cases hc : c = '\n'
    · subst hc
      have h1 : sextet '\n' = none := by decide +kernel
      rw [a2b, if_neg (by decide), h1]
      simp only [ne_eq, not_true_eq_false, decide_false, List.filter_cons, Bool.false_eq_true, if_false]
      exact ih pos left pads
    · rw [List.filter_cons_of_pos (by simpa using hc), a2b, a2b]
      simp only [ih]

theorem Echo.sextet_digit : ∀ k < 64, sextet (digit64 k) = some k ∧ digit64 k ≠ '=' := by decide +kernel

theorem Echo.a2b_base64 (bs : List UInt8) : a2b 0 0 0 (base64 bs) = .ok bs := by
  have lt : ∀ a : UInt8, a.toNat < 256 := fun a => a.toNat_lt
  have byte : ∀ (a : UInt8) (n : Nat), n = a.toNat → UInt8.ofNat n = a := by
    intro a n h
    rw [h]
    exact UInt8.ofNat_toNat
  have step : ∀ (k : Nat), k < 64 → ∀ pos left pads cs, a2b pos left pads (digit64 k :: cs) =
      if pos = 0 then a2b 1 k 0 cs
      else if pos = 1 then do return UInt8.ofNat (left * 4 + k / 16) :: (← a2b 2 (k % 16) 0 cs)
      else if pos = 2 then do return UInt8.ofNat (left * 16 + k / 4) :: (← a2b 3 (k % 4) 0 cs)
      else do return UInt8.ofNat (left * 64 + k) :: (← a2b 0 0 0 cs) := by
    intro k hk pos left pads cs
    obtain ⟨h1, h2⟩ := Echo.sextet_digit k hk
    rw [a2b, if_neg h2, h1]
  fun_induction base64 bs with
  | case1 => rfl
  | case2 a n =>
    have := lt a
    rw [step _ (by omega), if_pos rfl, step _ (by omega), if_neg (by decide), if_pos rfl]
    simp only [a2b, if_true, bind, Except.bind, pure, Except.pure, Nat.reduceLeDiff, Nat.reduceAdd, if_false]
    rw [byte a _ (by omega)]
  | case3 a b n =>
    have := lt a
    have := lt b
    rw [step _ (by omega), if_pos rfl, step _ (by omega), if_neg (by decide), if_pos rfl, step _ (by omega),
      if_neg (by decide), if_neg (by decide), if_pos rfl]
    simp only [a2b, if_true, bind, Except.bind, pure, Except.pure, Nat.reduceLeDiff, Nat.reduceAdd]
    rw [byte a _ (by omega), byte b _ (by omega)]
  | case4 a b c rest n ih =>
    have := lt a
    have := lt b
    have := lt c
    simp only [List.cons_append, List.nil_append]
    rw [step _ (by omega), if_pos rfl, step _ (by omega), if_neg (by decide), if_pos rfl, step _ (by omega),
      if_neg (by decide), if_neg (by decide), if_pos rfl, step _ (by omega), if_neg (by decide), if_neg (by decide),
      if_neg (by decide), ih]
    simp only [bind, Except.bind, pure, Except.pure]
    rw [byte a _ (by omega), byte b _ (by omega), byte c _ (by omega)]

theorem Echo.base64_ne_nil : ∀ {bs : List UInt8}, bs ≠ [] → base64 bs ≠ []
  | [], h => absurd rfl h
  | [_], _ => by simp [base64]
  | [_, _], _ => by simp [base64]
  | _ :: _ :: _ :: _, _ => by simp [base64]

/-- **C122** Whatever the text of the input file is, `extractinput` prints exactly it: the attribute is its base64 text, with line ends
anywhere. -/
theorem C122_input {text : String} (ht : text ≠ "") {enc : Text} (h : EncodedAs text enc) (more : List Text) :
    inputText (enc :: more) = .ok text.toList := by
  have hne : enc ≠ [] := by
    rintro rfl
    refine Echo.base64_ne_nil ?_ h.symm
    intro h0
    apply ht
    apply String.utf8ByteSize_eq_zero_iff.1
    have : text.toUTF8.data.size = 0 := by simpa using congrArg List.length h0
    exact this
  obtain ⟨c, cs, rfl⟩ := List.exists_cons_of_ne_nil hne
  simp only [inputText]
  rw [Echo.a2b_skip, h, Echo.a2b_base64]
  simp only [bind, Except.bind, decodeUtf8, Array.toArray_toList]
  have : String.fromUTF8? ⟨text.toUTF8.data⟩ = some text := by
    unfold String.fromUTF8?
    rw [dif_pos (show ByteArray.IsValidUTF8 ⟨text.toUTF8.data⟩ from text.isValidUTF8)]
    rfl
  rw [this]

example : ∃ enc, EncodedAs "x = 1 -- β" enc ∧ '\n' ∈ enc ∧ inputText [enc] = .ok "x = 1 -- β".toList := by
  have h : EncodedAs "x = 1 -- β" "eCA9\nIDEgLS0gzrI=\n".toList := by
    unfold EncodedAs; decide +kernel
  exact ⟨_, h, by decide +kernel, C122_input (by decide +kernel) h []⟩

/-- **C122** An empty attribute gives a notice. -/
theorem C122_none (more : List Text) : inputText ([] :: more) = .ok "No embedded input file!".toList := rfl

theorem Echo.a2b_count (cs : Text) (hp : '=' ∉ cs) : ∀ pos left pads, pos < 4 →
    (pos + (cs.filter (· ∈ alphabet)).length) % 4 ≠ 0 → a2b pos left pads cs = .error .valueError := by
  induction cs with
  | nil =>
    intro pos left pads h4 h
    rw [a2b, if_neg]
    simp only [List.filter_nil, List.length_nil] at h
    omega
  | cons c cs ih =>
    intro pos left pads h4 h
    have hc : c ≠ '=' := fun e => hp (by simp [e])
    have ih := ih (fun e => hp (by simp [e]))
    rw [a2b, if_neg hc]
    by_cases ha : c ∈ alphabet
    · rw [List.filter_cons_of_pos (by simpa using ha), List.length_cons] at h
      simp only [sextet, if_pos ha]
      split_ifs with h0 h1 h2
      · exact ih _ _ _ (by omega) (by omega)
      · rw [ih _ _ _ (by omega) (by omega)]; rfl
      · rw [ih _ _ _ (by omega) (by omega)]; rfl
      · rw [ih _ _ _ (by omega) (by omega)]; rfl
    · rw [List.filter_cons_of_neg (by simpa using ha)] at h
      simp only [sextet, if_neg ha]
      exact ih _ _ _ h4 h

/-- **C122** An attribute that was cut off is an error, not part of a text: without padding the number of digits has to be a multiple of
four. -/
theorem C122_cut {enc : Text} (hp : '=' ∉ enc) {n : Nat} (hn : (enc.filter fun c => c ∈ (List.range 64).map digit64).length = n) (h4 : n % 4 ≠ 0)
    (more : List Text) : inputText (enc :: more) = .error .valueError := by
  have hne : enc ≠ [] := by
    rintro rfl
    simp at hn
    omega
  obtain ⟨c, cs, rfl⟩ := List.exists_cons_of_ne_nil hne
  simp only [inputText]
  rw [Echo.a2b_count _ hp 0 0 0 (by omega)]
  · rfl
  · have : alphabet = (List.range 64).map digit64 := by decide +kernel
    rw [this, hn]
    omega

example : inputText ["eCA9I".toList] = .error .valueError :=
  C122_cut (enc := "eCA9I".toList) (by decide) (n := 5) (by decide +kernel) (by decide) []

section
variable {F : Type}

theorem Echo.echo_ok (texts : GData F → Except Err (List Text)) {s : Space F} (hr : Reachable s) {use : Option Tag}
    {ts : List Tag} (hts : Requests s use ts) (ls : Tag → List Nat) (hl : ∀ t ∈ ts, s.lookup t = some (ls t))
    {T : GData F → List Text}
    (hT : ∀ t ∈ ts, ∀ e ∈ visit s.active true (ls t), ∀ d, s.heap[e.2]? = some d → texts d = .ok (T d)) :
    ∃ ds : List (GData F), echo texts use s = .ok (ds.flatMap T) ∧
      ds.map some = (ts.flatMap fun t => visit s.active true (ls t)).map fun p => s.heap[p.2]? := by
  have hi := Space.reachable_inv hr
  have hto := C16_iterate_all hts ls hl false true
  have hlt := Space.toList_none_lt hi hto
  have hit := Space.iterate_ok (σ := List Text) (fun _ => s) use false true .none
    (echoBody texts s) [] hi (fun _ => True) trivial (fun _ _ _ _ _ _ => trivial) (fun _ _ _ _ _ => rfl)
    (fun _ _ _ _ => rfl) hto
  have hT' : ∀ e ∈ (ts.flatMap fun t => visit s.active true (ls t)), ∀ d, s.heap[e.2]? = some d → texts d = .ok (T d) := by
    intro e he
    obtain ⟨t, ht, he⟩ := List.mem_flatMap.1 he
    exact hT t ht e he
  generalize (ts.flatMap fun t => visit s.active true (ls t)) = items at hlt hit hT'
  have key : ∀ (items : List (Nat × Nat)) (out : List Text), (∀ e ∈ items, e.2 < s.heap.length) →
      (∀ e ∈ items, ∀ d, s.heap[e.2]? = some d → texts d = .ok (T d)) →
      ∃ ds : List (GData F), items.foldlM (fun out e => echoBody texts s out e.1 e.2) out =
          Except.ok (ε := Err) (out ++ ds.flatMap T) ∧ ds.map some = items.map fun p => s.heap[p.2]? := by
    intro items
    induction items with
    | nil => intro out _ _; exact ⟨[], by simp; rfl, rfl⟩
    | cons e items ih =>
      intro out hlt hT
      have he := hlt e (by simp)
      have hget := List.getElem?_eq_getElem he
      obtain ⟨ds, h1, h2⟩ := ih (out ++ T s.heap[e.2]) (fun e h => hlt e (by simp [h])) (fun e h => hT e (by simp [h]))
      refine ⟨s.heap[e.2] :: ds, ?_, ?_⟩
      · have hb : echoBody texts s out e.1 e.2 = .ok (out ++ T s.heap[e.2]) := by
          simp only [echoBody, hget, hT e (by simp) _ hget, Except.map]
        rw [List.foldlM_cons, hb]
        simp only [bind, Except.bind]
        rw [h1]; simp
      · simp only [List.map_cons, h2, hget]
  obtain ⟨ds, h1, h2⟩ := key items [] hlt hT'
  exact ⟨ds, hit.trans h1, h2⟩

/-- **C122** `pr` prints, for every dataset visited and in that order, its values without the axes of one entry. -/
theorem C122_values (sh : NArr F → Text) {s : Space F} (hr : Reachable s) {use : Option Tag}
    {ts : List Tag} (hts : Requests s use ts) (ls : Tag → List Nat) (hl : ∀ t ∈ ts, s.lookup t = some (ls t))
    {v : GData F → NArr F}
    (hv : ∀ t ∈ ts, ∀ e ∈ visit s.active true (ls t), ∀ d, s.heap[e.2]? = some d → d.values = some (v d)) :
    ∃ ds : List (GData F), pr sh false use s = .ok (ds.map fun d => sh ⟨(v d).shape.filter (· ≠ 1), (v d).data⟩) ∧
      ds.map some = (ts.flatMap fun t => visit s.active true (ls t)).map fun p => s.heap[p.2]? := by
  obtain ⟨ds, h1, h2⟩ := Echo.echo_ok (prTexts sh false) hr hts ls hl (T := fun d => [sh (v d).squeeze]) (by
    intro t ht e he d hd
    simp [prTexts, hv t ht e he d hd])
  refine ⟨ds, ?_, h2⟩
  rw [pr, h1]
  congr 1
  clear h1 h2
  induction ds with
  | nil => rfl
  | cons d ds ih => rw [List.flatMap_cons, ih]; rfl

/-- **C122** `pr --grid` prints, for every dataset visited and in that order, the arrays of its grid, one for each direction. -/
theorem C122_grid (sh : NArr F → Text) {s : Space F} (hr : Reachable s) {use : Option Tag}
    {ts : List Tag} (hts : Requests s use ts) (ls : Tag → List Nat) (hl : ∀ t ∈ ts, s.lookup t = some (ls t))
    {g : GData F → List (NArr F)}
    (hg : ∀ t ∈ ts, ∀ e ∈ visit s.active true (ls t), ∀ d, s.heap[e.2]? = some d → d.grid = some (g d)) :
    ∃ ds : List (GData F), pr sh true use s = .ok (ds.flatMap fun d => (g d).map sh) ∧
      ds.map some = (ts.flatMap fun t => visit s.active true (ls t)).map fun p => s.heap[p.2]? :=
  Echo.echo_ok (prTexts sh true) hr hts ls hl (T := fun d => (g d).map sh) (by
    intro t ht e he d hd
    simp [prTexts, hg t ht e he d hd])

/-- **C122** `extractinput` prints, for every dataset visited and in that order, the text of the input file that its file embeds. -/
theorem C122_extract {attr : Text → Except Err (List Text)} {text : Text → String} {s : Space F} (hr : Reachable s) {use : Option Tag}
    {ts : List Tag} (hts : Requests s use ts) (ls : Tag → List Nat) (hl : ∀ t ∈ ts, s.lookup t = some (ls t))
    (ha : ∀ t ∈ ts, ∀ e ∈ visit s.active true (ls t), ∀ d, s.heap[e.2]? = some d →
      text d.fileName ≠ "" ∧ ∃ enc, attr d.fileName = .ok [enc] ∧ EncodedAs (text d.fileName) enc) :
    ∃ ds : List (GData F), extractInput attr use s = .ok (ds.map fun d => (text d.fileName).toList) ∧
      ds.map some = (ts.flatMap fun t => visit s.active true (ls t)).map fun p => s.heap[p.2]? := by
  obtain ⟨ds, h1, h2⟩ := Echo.echo_ok (extractTexts attr) hr hts ls hl (T := fun d => [(text d.fileName).toList]) (by
    intro t ht e he d hd
    obtain ⟨hne, enc, h1, h2⟩ := ha t ht e he d hd
    simp only [extractTexts, h1, bind, Except.bind, C122_input hne h2, pure, Except.pure])
  refine ⟨ds, ?_, h2⟩
  rw [extractInput, h1]
  congr 1
  clear h1 h2
  induction ds with
  | nil => rfl
  | cons d ds ih => rw [List.flatMap_cons, ih]; rfl

end

/-! Two datasets, loaded from files that embed texts. -/
namespace EchoEx

def a : GData ℚ := { tag := "f".toList, grid := some [NArr.ofList [0, 1, 2]], values := some ⟨[2, 1], [5, 6]⟩, fileName := "a".toList }
def b : GData ℚ := { tag := "g".toList, grid := some [NArr.ofList [0, 3], NArr.ofList [1, 2]], values := some ⟨[1, 1, 2], [7, 8]⟩, fileName := "b".toList }

def store : Space ℚ := (({} : Space ℚ).addNew a).addNew b

theorem store_reachable : Reachable store := (Reachable.empty.add _).add _

def show_ (x : NArr ℚ) : Text := x.shape.map fun n => Char.ofNat (48 + n)

def attr (f : Text) : Except Err (List Text) := if f = "a".toList then .ok ["eD0x\n".toList] else .ok ["eT0y\nMw==\n".toList]

def text (f : Text) : String := if f = "a".toList then "x=1" else "y=23"

theorem heap_cases {e : Nat} {d : GData ℚ} (h : store.heap[e]? = some d) : d = a ∨ d = b := by
  have := List.mem_of_getElem? h
  have hh : store.heap = [a, b] := rfl
  rw [hh] at this
  simpa using this

/-- The hypotheses of `C122_extract` are met; the two texts are printed. -/
example : extractInput attr none store = .ok ["x=1".toList, "y=23".toList] := by
  obtain ⟨ds, h1, h2⟩ := C122_extract (attr := attr) (text := text) store_reachable .all
    (fun t => if t = "f".toList then [0] else [1]) (by decide +kernel) (by
      intro t _ e _ d hd
      rcases heap_cases hd with rfl | rfl
      · exact ⟨by decide +kernel, _, rfl, by unfold EncodedAs; decide +kernel⟩
      · exact ⟨by decide +kernel, _, rfl, by unfold EncodedAs; decide +kernel⟩)
  have h3 : ds.map some = [some a, some b] := h2.trans rfl
  have : ds = [a, b] := by
    match ds, h3 with
    | [x, y], h => simpa using h
  rw [h1, this]
  have e1 : (text a.fileName).toList = "x=1".toList := by decide +kernel
  have e2 : (text b.fileName).toList = "y=23".toList := by decide +kernel
  simp only [List.map_cons, List.map_nil, e1, e2]

/-- The hypotheses of `C122_values` are met; axes of one entry are dropped. -/
example : pr show_ false none store = .ok ["2".toList, "2".toList] := by
  obtain ⟨ds, h1, h2⟩ := C122_values show_ store_reachable .all (fun t => if t = "f".toList then [0] else [1]) (by decide +kernel)
    (v := fun d => d.values.getD ⟨[], []⟩) (by
      intro t _ e _ d hd
      rcases heap_cases hd with rfl | rfl <;> rfl)
  have h3 : ds.map some = [some a, some b] := h2.trans rfl
  have : ds = [a, b] := by
    match ds, h3 with
    | [x, y], h => simpa using h
  rw [h1, this]
  rfl

/-- The hypotheses of `C122_grid` are met; there are three arrays in all. -/
example : pr show_ true none store = .ok ["3".toList, "2".toList, "2".toList] := by
  obtain ⟨ds, h1, h2⟩ := C122_grid show_ store_reachable .all (fun t => if t = "f".toList then [0] else [1]) (by decide +kernel)
    (g := fun d => d.grid.getD []) (by
      intro t _ e _ d hd
      rcases heap_cases hd with rfl | rfl <;> rfl)
  have h3 : ds.map some = [some a, some b] := h2.trans rfl
  have : ds = [a, b] := by
    match ds, h3 with
    | [x, y], h => simpa using h
  rw [h1, this]
  rfl

end EchoEx
end Pgkyl
