import Verif.Model.Cli
import Verif.Spec.Cli
import Verif.Lemmas.Py
import Verif.Lemmas.StoreCmd
import Mathlib.Data.List.Lex
import Mathlib.Data.List.TakeWhile
import Mathlib.Data.Prod.Lex
import Mathlib.Data.Char
/-! # Lemmas about the command line -/

namespace Pgkyl
namespace Cli
open Spec

theorem startsWith_iff {w c : Str} : startsWith w c = true ↔ Abbrev w c := by
  unfold startsWith Abbrev
  rw [List.isPrefixOf_iff_prefix]
  exact ⟨fun ⟨r, h⟩ => ⟨r, h.symm⟩, fun ⟨r, h⟩ => ⟨r, h.symm⟩⟩

theorem getCommand_command {table : List Str} (hn : table.Nodup) (glob : Str → List Str) (strs : List Str) {w c : Str}
    (h : NamesCommand table w c) : getCommand table glob strs w = .ok (c, strs) := by
  obtain ⟨hc, rfl | ⟨hw, hu⟩⟩ := h
  · simp [getCommand, hc]
  · unfold getCommand
    rw [if_neg hw]
    have : table.filter (startsWith w) = [c] := by
      have hc' : table.filter (startsWith w) = table.filter (fun x => x = c) := by
        refine List.filter_congr fun x hx => ?_
        have := hu x hx
        rw [← startsWith_iff] at this
        by_cases hxc : x = c
        · simp [this.2 hxc]; simp [hxc]
        · simp only [hxc, decide_false]
          by_contra hh
          exact hxc (this.1 (by simpa using hh))
      rw [hc']
      have : table.count c = 1 := List.count_eq_one_of_mem hn hc
      rw [show (fun x : Str => decide (x = c)) = (fun x => x == c) from by funext x; rw [Bool.eq_iff_iff]; simp, List.filter_beq, this]
      rfl
    rw [this]

theorem getCommand_file {table : List Str} (glob : Str → List Str) (strs : List Str) {w : Str}
    (h : NamesFiles table glob w) : getCommand table glob strs w = .ok ("load".toList, strs ++ [w]) := by
  obtain ⟨h1, h2⟩ := h
  unfold getCommand
  rw [if_neg (fun hw => h1 w hw ⟨[], by simp⟩)]
  have : table.filter (startsWith w) = [] := by
    rw [List.filter_eq_nil_iff]
    intro x hx hs
    exact h1 x hx (startsWith_iff.1 hs)
  rw [this]
  simp [h2]

theorem getCommand_ambiguous {table : List Str} (glob : Str → List Str) (strs : List Str) {w c c' : Str} (hw : w ∉ table)
    (hc : c ∈ table) (hc' : c' ∈ table) (hne : c ≠ c') (ha : Abbrev w c) (ha' : Abbrev w c') :
    getCommand table glob strs w = .error .fail := by
  unfold getCommand
  rw [if_neg hw]
  have m1 : c ∈ table.filter (startsWith w) := List.mem_filter.2 ⟨hc, startsWith_iff.2 ha⟩
  have m2 : c' ∈ table.filter (startsWith w) := List.mem_filter.2 ⟨hc', startsWith_iff.2 ha'⟩
  match h : table.filter (startsWith w) with
  | [] => rw [h] at m1; simp at m1
  | [x] =>
    rw [h] at m1 m2
    simp only [List.mem_cons, List.not_mem_nil, or_false] at m1 m2
    exact absurd (m1.trans m2.symm) hne
  | _ :: _ :: _ => rfl

theorem getCommand_nothing {table : List Str} (glob : Str → List Str) (strs : List Str) {w : Str}
    (h : ∀ c ∈ table, ¬ Abbrev w c) (hg : glob w = []) : getCommand table glob strs w = .error .fail := by
  unfold getCommand
  rw [if_neg (fun hw => h w hw ⟨[], by simp⟩)]
  have : table.filter (startsWith w) = [] := by
    rw [List.filter_eq_nil_iff]
    intro x hx hs
    exact h x hx (startsWith_iff.1 hs)
  rw [this]
  simp [hg]

/-! ### Options -/

theorem truthy_iff {o : Option Str} : truthy o = true ↔ IsGiven o := by
  match o with
  | none => simp [truthy, IsGiven]
  | some [] => simp [truthy, IsGiven]
  | some (c :: cs) => simp [truthy, IsGiven]

theorem pickCut_localFirst (l g : Option Str) : LocalFirst l g (pickCut l g) := by
  unfold pickCut
  cases hl : truthy l <;> cases hg : truthy g <;> simp only [Bool.and_true, Bool.and_false, Bool.false_eq_true,
    if_true, if_false]
  · exact .none (by rw [← truthy_iff, hl]; simp) (by rw [← truthy_iff, hg]; simp)
  · exact .glob (by rw [← truthy_iff, hl]; simp) (truthy_iff.1 hg)
  · exact .loc (truthy_iff.1 hl)
  · exact .loc (truthy_iff.1 hl)

/-! ### Sorting -/

theorem splitOn_append_last {c : Char} : ∀ {ps : List Str} {t : Str}, (∀ p ∈ ps, c ∉ p) → c ∉ t →
    splitOn c (joinWith c (ps ++ [t])) = ps ++ [t] := by
  intro ps t h ht
  refine splitOn_joinWith _ (by simp) ?_
  intro p hp
  rcases List.mem_append.1 hp with hp | hp
  · exact h p hp
  · simp only [List.mem_cons, List.not_mem_nil, or_false] at hp
    rw [hp]; exact ht

theorem crush_name {k : Nat} {f : Output} (hf : f.Usual k) :
    crush f.name = some (f.parts.map Part.str ++ [.num f.frame, .str f.ext]) := by
  obtain ⟨_, h1, h2, h3⟩ := hf
  have hd : '_' ∉ Nat.toDigits 10 f.frame ++ '.' :: f.ext := by
    simp only [List.mem_append, List.mem_cons, not_or]
    exact ⟨notMem_of_all_isDig (toDigits_all_isDig _) (by decide), by decide, h2⟩
  have hs : splitOn '_' f.name = f.parts ++ [Nat.toDigits 10 f.frame ++ '.' :: f.ext] := splitOn_append_last h1 hd
  have hdot : splitOn '.' (Nat.toDigits 10 f.frame ++ '.' :: f.ext) = [Nat.toDigits 10 f.frame, f.ext] := by
    rw [splitOn_append (notMem_of_all_isDig (toDigits_all_isDig _) (by decide)), splitOn_notMem h3]
  unfold crush
  rw [hs]
  simp only [List.getLast?_append, List.getLast?_singleton, Option.some_or, hdot]
  rw [pyInt_of_isDigitStr (isDigitStr_toDigits _), natOfDigits_toDigits]
  simp

/-- The sorting key as an element of a linear order. -/
def lexKey (f : Output) : List Str ×ₗ (ℕ ×ₗ Str) := toLex (f.parts, toLex (f.frame, f.ext))

theorem keyLt_key : ∀ {p q : List Str} (n m : Nat) (e x : Str), p.length = q.length →
    keyLt (p.map Part.str ++ [.num n, .str e]) (q.map Part.str ++ [.num m, .str x]) =
      some (decide ((toLex (p, toLex (n, e)) : List Str ×ₗ (ℕ ×ₗ Str)) < toLex (q, toLex (m, x))))
  | [], [], n, m, e, x, _ => by
    simp only [List.map_nil, List.nil_append, keyLt, Part.lt?]
    by_cases h : (n : Int) = m
    · have hn : n = m := by exact_mod_cast h
      subst hn
      by_cases he : e = x
      · subst he; simp
      · simp [he, Prod.Lex.lt_iff]
    · have hn : n ≠ m := by exact_mod_cast h
      simp [h, hn, Prod.Lex.lt_iff]
  | a :: p, b :: q, n, m, e, x, hl => by
    simp only [List.map_cons, List.cons_append, keyLt]
    by_cases h : a = b
    · subst h
      rw [if_pos rfl, keyLt_key n m e x (by simpa using hl)]
      simp [Prod.Lex.lt_iff]
    · rw [if_neg (by simpa using h)]
      simp [Part.lt?, Prod.Lex.lt_iff, List.cons_lt_cons_iff, h]

theorem fileLe_name {k : Nat} {f g : Output} (hf : f.Usual k) (hg : g.Usual k) :
    fileLe f.name g.name = decide (lexKey f ≤ lexKey g) := by
  unfold fileLe
  rw [crush_name hf, crush_name hg]
  simp only
  rw [keyLt_key _ _ _ _ (hg.1.trans hf.1.symm)]
  unfold lexKey
  by_cases h : (toLex (g.parts, toLex (g.frame, g.ext)) : List Str ×ₗ (ℕ ×ₗ Str)) < toLex (f.parts, toLex (f.frame, f.ext))
  · simp [h, not_le.2 h]
  · simp [h, not_lt.1 h]

theorem mapM_crush {k : Nat} : ∀ {fs : List Output}, (∀ f ∈ fs, f.Usual k) →
    (fs.map Output.name).mapM crush = some (fs.map fun f => f.parts.map Part.str ++ [.num f.frame, .str f.ext])
  | [], _ => rfl
  | f :: fs, h => by
    rw [List.map_cons, List.mapM_cons, crush_name (h f (by simp)), mapM_crush fun x hx => h x (by simp [hx])]
    rfl

/-- Usual files are sorted by their parts, then by the frame number. -/
theorem sortFiles_names {k : Nat} {fs : List Output} (h : ∀ f ∈ fs, f.Usual k) :
    ∃ gs : List Output, sortFiles (fs.map Output.name) = gs.map Output.name ∧ gs.Perm fs ∧
      gs.Pairwise fun a b => lexKey a ≤ lexKey b := by
  refine ⟨fs.mergeSort fun a b => decide (lexKey a ≤ lexKey b), ?_, List.mergeSort_perm _ _, ?_⟩
  · unfold sortFiles
    rw [mapM_crush h]
    simp only
    rw [if_pos, ← List.map_mergeSort]
    · intro a ha b hb
      exact (fileLe_name (h a ha) (h b hb)).symm
    · unfold comparable
      rw [List.all_eq_true]
      intro a ha
      rw [List.all_eq_true]
      intro b hb
      obtain ⟨f, hf, rfl⟩ := List.mem_map.1 ha
      obtain ⟨g, hg, rfl⟩ := List.mem_map.1 hb
      rw [keyLt_key _ _ _ _ ((h f hf).1.trans (h g hg).1.symm)]
      rfl
  · have := List.pairwise_mergeSort (le := fun a b : Output => decide (lexKey a ≤ lexKey b))
      (fun a b c h1 h2 => by simp only [decide_eq_true_eq] at *; exact h1.trans h2)
      (fun a b => by simp only [Bool.or_eq_true, decide_eq_true_eq]; exact le_total _ _) fs
    exact this.imp fun h => by simpa using h

theorem lexKey_frame {a b : Output} (h : lexKey a ≤ lexKey b) (hp : a.parts = b.parts) : a.frame ≤ b.frame := by
  unfold lexKey at h
  rw [Prod.Lex.le_iff] at h
  rcases h with h | ⟨_, h⟩
  · simp [hp] at h
  · simp only [ofLex_toLex] at h
    rw [Prod.Lex.le_iff] at h
    rcases h with h | ⟨h, _⟩
    · exact le_of_lt h
    · exact h.le

theorem contains_iff {sub : Str} : ∀ {s : Str}, contains sub s = true ↔ Occurs sub s
  | [] => by
    unfold contains Occurs
    rw [List.isEmpty_iff]
    constructor
    · rintro rfl; exact ⟨[], [], rfl⟩
    · rintro ⟨a, b, h⟩
      have := congrArg List.length h
      simp only [List.length_nil, List.length_append] at this
      exact List.length_eq_zero_iff.1 (by omega)
  | c :: cs => by
    rw [contains, Bool.or_eq_true, contains_iff (s := cs), List.isPrefixOf_iff_prefix]
    constructor
    · rintro (⟨r, h⟩ | ⟨a, b, h⟩)
      · exact ⟨[], r, by simpa using h.symm⟩
      · exact ⟨c :: a, b, by simp [h]⟩
    · rintro ⟨a, b, h⟩
      cases a with
      | nil => exact Or.inl ⟨b, by simpa using h.symm⟩
      | cons x a =>
        simp only [List.cons_append, List.cons.injEq] at h
        exact Or.inr ⟨a, b, by simpa using h.2⟩

/-! ### Loads -/

/-- The word is handed to `load`. -/
def isFile (table : List Str) (glob : Str → List Str) (w : Str) : Bool :=
  match getCommand table glob [] w with
  | .ok r => r.1 = "load".toList
  | .error _ => false

theorem resolveAll_ok {table : List Str} (hn : table.Nodup) {glob : Str → List Str} : ∀ {words : List Str}
    (_ : ∀ w ∈ words, NamesFiles table glob w ∨ ∃ c, c ≠ "load".toList ∧ NamesCommand table w c) (strs : List Str),
    ∃ cmds, resolveAll table glob words strs = .ok (cmds, strs ++ words.filter (isFile table glob)) ∧
      ∀ (S : List Str) (idx : Nat), (∃ rest, S.drop idx = words.filter (isFile table glob) ++ rest) →
      runLoads S cmds idx = .ok (words.filter (isFile table glob))
  | [], _, strs => ⟨[], by simp [resolveAll], by simp [runLoads]⟩
  | w :: words, h, strs => by
    rcases h w (by simp) with hf | ⟨c, hc, hcmd⟩
    · obtain ⟨cmds, h1, h2⟩ := resolveAll_ok hn (words := words) (fun x hx => h x (by simp [hx])) (strs ++ [w])
      have hp : isFile table glob w = true := by simp [isFile, getCommand_file _ _ hf]
      refine ⟨"load".toList :: cmds, ?_, ?_⟩
      · rw [resolveAll, getCommand_file _ _ hf]
        simp only [bind, Except.bind, h1, pure, Except.pure]
        rw [List.filter_cons_of_pos hp]
        simp
      · rintro S idx ⟨rest, hS⟩
        rw [List.filter_cons_of_pos hp] at hS ⊢
        have hidx : S[idx]? = some w := by
          have := congrArg (fun l => l[0]?) hS
          simpa using this
        have hdrop : S.drop (idx + 1) = words.filter (isFile table glob) ++ rest := by
          rw [← List.tail_drop, hS]; rfl
        simp only [runLoads, if_true, hidx]
        rw [h2 S (idx + 1) ⟨rest, hdrop⟩]
        rfl
    · obtain ⟨cmds, h1, h2⟩ := resolveAll_ok hn (words := words) (fun x hx => h x (by simp [hx])) strs
      have hp : ¬ isFile table glob w = true := by simpa [isFile, getCommand_command hn _ _ hcmd] using hc
      refine ⟨c :: cmds, ?_, ?_⟩
      · rw [resolveAll, getCommand_command hn _ _ hcmd]
        simp only [bind, Except.bind, h1, pure, Except.pure]
        rw [List.filter_cons_of_neg hp]
      · intro S idx hS
        rw [List.filter_cons_of_neg hp] at hS ⊢
        rw [runLoads, if_neg hc]
        exact h2 S idx hS

/-! ### Labels -/

theorem joinWith_snoc {c : Char} {p : Str} : ∀ {l : List Str}, l ≠ [] → joinWith c (l ++ [p]) = joinWith c l ++ c :: p
  | [], h => absurd rfl h
  | [q], _ => rfl
  | q :: r :: l, _ => by
    have := joinWith_snoc (c := c) (p := p) (l := r :: l) (by simp)
    simp only [List.cons_append, joinWith] at this ⊢
    rw [this]
    simp

theorem joinWith_eq_nil {c : Char} {a : Str} {l : List Str} (h : a ≠ []) : joinWith c (a :: l) ≠ [] := by
  cases l with
  | nil => simpa [joinWith] using h
  | cons b l => simp [joinWith]

theorem labelOf_eq_nil {l : List Str} : labelOf l = [] ↔ l.dropWhile (· = []) = [] := by
  unfold labelOf
  constructor
  · intro h
    cases hd : l.dropWhile (· = []) with
    | nil => rfl
    | cons a as =>
      rw [hd] at h
      refine absurd h (joinWith_eq_nil ?_)
      have := List.head_dropWhile_not (p := fun x : Str => decide (x = [])) (l := l) (by rw [hd]; simp)
      simpa [hd] using this
  · intro h; rw [h]; rfl

theorem labelOf_snoc (l : List Str) (p : Str) :
    labelOf (l ++ [p]) = if labelOf l = [] then p else labelOf l ++ '_' :: p := by
  by_cases h : labelOf l = []
  · rw [if_pos h]
    have h' := labelOf_eq_nil.1 h
    unfold labelOf
    rw [List.dropWhile_append, h']
    by_cases hp : p = []
    · simp [hp, joinWith]
    · simp [hp, joinWith]
  · rw [if_neg h]
    have h' := fun x => h (labelOf_eq_nil.2 x)
    unfold labelOf
    rw [List.dropWhile_append]
    have : (l.dropWhile (· = [])).isEmpty = false := by
      cases hd : l.dropWhile (· = []) with
      | nil => exact absurd hd h'
      | cons => rfl
    rw [this]
    simp only [Bool.false_eq_true, if_false]
    exact joinWith_snoc h'

theorem included_eq (names : List (List Str)) (ref : List Str) (i : Nat) :
    included names ref i = decide (∃ n ∈ names, i < n.length ∧ n[i]? ≠ ref[i]?) := by
  unfold included
  rw [Bool.eq_iff_iff, List.any_eq_true, decide_eq_true_eq]
  constructor
  · rintro ⟨n, hn, h⟩
    refine ⟨n, hn, ?_⟩
    cases hi : n[i]? with
    | none => rw [hi] at h; simp at h
    | some p =>
      rw [hi] at h
      refine ⟨(List.getElem?_eq_some_iff.1 hi).1, ?_⟩
      intro he
      rw [← he] at h
      simp at h
  · rintro ⟨n, hn, hi, h⟩
    refine ⟨n, hn, ?_⟩
    rw [List.getElem?_eq_getElem hi] at h ⊢
    simp only [bne_iff_ne]
    exact fun x => h x.symm

theorem foldl_label (names : List (List Str)) (ref nm : List Str) (M : Nat) :
    (List.range M).foldl (fun l i => if included names ref i then appendPart l nm i else l) [] =
      labelOf (((List.range M).filter fun i => decide (∃ n ∈ names, i < n.length ∧ n[i]? ≠ ref[i]?) &&
        decide (i < nm.length)).map fun i => nm.getD i []) := by
  induction M with
  | zero => rfl
  | succ M ih =>
    rw [List.range_succ, List.foldl_append, ih, List.filter_append, List.map_append]
    simp only [List.foldl_cons, List.foldl_nil, included_eq]
    by_cases h1 : ∃ n ∈ names, M < n.length ∧ n[M]? ≠ ref[M]?
    · by_cases h2 : M < nm.length
      · rw [if_pos (by simpa using h1), List.filter_cons_of_pos (by simpa [h2] using h1)]
        simp only [List.filter_nil, List.map_cons, List.map_nil, labelOf_snoc, appendPart, List.getElem?_eq_getElem h2,
          List.getD_eq_getElem?_getD, Option.getD_some]
      · rw [if_pos (by simpa using h1), List.filter_cons_of_neg (by simp [h2])]
        simp [appendPart, List.getElem?_eq_none (Nat.le_of_not_lt h2)]
    · rw [if_neg (by simpa using h1), List.filter_cons_of_neg (by simp [h1])]
      simp

theorem range_filter_lt (P : Nat → Bool) {n M : Nat} (h : n ≤ M) :
    ((List.range M).filter fun i => P i && decide (i < n)) = (List.range n).filter P := by
  obtain ⟨d, rfl⟩ := Nat.exists_eq_add_of_le h
  rw [List.range_add, List.filter_append]
  have h1 : ((List.range d).map (n + ·)).filter (fun i => P i && decide (i < n)) = [] := by
    rw [List.filter_eq_nil_iff]
    intro i hi
    obtain ⟨k, _, rfl⟩ := List.mem_map.1 hi
    simp
  rw [h1, List.append_nil]
  refine List.filter_congr fun i hi => ?_
  simp [List.mem_range.1 hi]

theorem longestOf_ok {names : List (List Str)} (h : names ≠ []) :
    ∃ ref, longestOf names = .ok ref ∧ ref ∈ names ∧ ∀ n ∈ names, n.length ≤ ref.length := by
  match names with
  | [] => exact absurd rfl h
  | a :: as =>
    refine ⟨_, rfl, ?_⟩
    suffices ∀ (as : List (List Str)) (a : List Str),
        as.foldl (fun m n => if m.length < n.length then n else m) a ∈ a :: as ∧
        ∀ n ∈ a :: as, n.length ≤ (as.foldl (fun m n => if m.length < n.length then n else m) a).length from this as a
    intro as
    induction as with
    | nil => intro a; simp
    | cons b as ih =>
      intro a
      rw [List.foldl_cons]
      obtain ⟨h1, h2⟩ := ih (if a.length < b.length then b else a)
      constructor
      · rcases List.mem_cons.1 h1 with h1 | h1
        · rw [h1]; split <;> simp
        · simp [h1]
      · intro n hn
        have h0 := h2 _ (List.mem_cons_self ..)
        simp only [List.mem_cons] at hn
        rcases hn with rfl | rfl | hn
        · refine le_trans ?_ h0; split <;> omega
        · refine le_trans ?_ h0; split <;> omega
        · exact h2 n (by simp [hn])

theorem uniqueLabels_ok {names : List (List Str)} (h : names ≠ []) :
    ∃ ref ∈ names, (∀ n ∈ names, n.length ≤ ref.length) ∧
      uniqueLabels names = .ok (names.map fun nm => labelOf (distinctive names ref nm)) := by
  obtain ⟨ref, h1, h2, h3⟩ := longestOf_ok h
  refine ⟨ref, h2, h3, ?_⟩
  unfold uniqueLabels
  rw [h1]
  simp only [bind, Except.bind, pure, Except.pure, Except.ok.injEq]
  refine List.map_congr_left fun nm hnm => ?_
  rw [foldl_label, range_filter_lt (fun i => decide (∃ n ∈ names, i < n.length ∧ n[i]? ≠ ref[i]?)) (h3 nm hnm)]
  rfl

/-- Labels determine the parts, if there are equally many. -/
theorem labelOf_inj {a b : List Str} (hl : a.length = b.length) (ha : ∀ p ∈ a, '_' ∉ p) (hb : ∀ p ∈ b, '_' ∉ p)
    (h : labelOf a = labelOf b) : a = b := by
  have hdrop : a.dropWhile (· = []) = b.dropWhile (· = []) := by
    by_cases h0 : labelOf a = []
    · rw [labelOf_eq_nil.1 h0, labelOf_eq_nil.1 (h ▸ h0)]
    · have e1 := splitOn_joinWith (c := '_') (a.dropWhile (· = [])) (fun x => h0 (labelOf_eq_nil.2 x))
        (fun p hp => ha p (List.dropWhile_subset _ hp))
      have e2 := splitOn_joinWith (c := '_') (b.dropWhile (· = [])) (fun x => h0 (h.trans (labelOf_eq_nil.2 x)))
        (fun p hp => hb p (List.dropWhile_subset _ hp))
      unfold labelOf at h
      rw [← e1, ← e2, h]
  have htake : ∀ l : List Str, l.takeWhile (· = []) = List.replicate (l.takeWhile (· = [])).length [] := by
    intro l
    rw [List.eq_replicate_iff]
    exact ⟨rfl, fun x hx => by simpa using List.mem_takeWhile_imp hx⟩
  have ea : a.takeWhile (· = []) ++ a.dropWhile (· = []) = a := List.takeWhile_append_dropWhile
  have eb : b.takeWhile (· = []) ++ b.dropWhile (· = []) = b := List.takeWhile_append_dropWhile
  have : (a.takeWhile (· = [])).length = (b.takeWhile (· = [])).length := by
    have l1 := congrArg List.length ea
    have l2 := congrArg List.length eb
    have l3 := congrArg List.length hdrop
    rw [List.length_append] at l1 l2
    omega
  rw [← ea, ← eb, hdrop, htake a, htake b, this]

theorem distinctive_ne {names : List (List Str)} {ref a b : List Str} (ha : a ∈ names) (hb : b ∈ names)
    (hl : a.length = b.length) (hne : a ≠ b) : distinctive names ref a ≠ distinctive names ref b := by
  intro h
  unfold distinctive at h
  rw [hl, List.map_inj_left] at h
  apply hne
  refine List.ext_getElem? fun i => ?_
  by_cases hi : i < b.length
  · by_cases hab : a[i]? = b[i]?
    · exact hab
    · have hmem : i ∈ (List.range b.length).filter fun i => decide (∃ n ∈ names, i < n.length ∧ n[i]? ≠ ref[i]?) := by
        rw [List.mem_filter, List.mem_range]
        refine ⟨hi, ?_⟩
        simp only [decide_eq_true_eq]
        by_cases hr : a[i]? = ref[i]?
        · exact ⟨b, hb, hi, fun x => hab (hr.trans x.symm)⟩
        · exact ⟨a, ha, by omega, hr⟩
      have := h i hmem
      have hia : i < a.length := by omega
      simp only [List.getD_eq_getElem?_getD, List.getElem?_eq_getElem hi, List.getElem?_eq_getElem hia,
        Option.getD_some] at this
      rw [List.getElem?_eq_getElem hi, List.getElem?_eq_getElem hia, this]
  · rw [List.getElem?_eq_none (by omega), List.getElem?_eq_none (by omega)]

theorem distinctive_length (names : List (List Str)) (ref : List Str) {a b : List Str} (hl : a.length = b.length) :
    (distinctive names ref a).length = (distinctive names ref b).length := by
  unfold distinctive
  rw [List.length_map, List.length_map, hl]

theorem distinctive_mem {names : List (List Str)} {ref a : List Str} {p : Str} (hp : p ∈ distinctive names ref a) :
    p ∈ a := by
  unfold distinctive at hp
  obtain ⟨i, hi, rfl⟩ := List.mem_map.1 hp
  have := List.mem_range.1 (List.mem_filter.1 hi).1
  rw [List.getD_eq_getElem?_getD, List.getElem?_eq_getElem this]
  exact List.getElem_mem this

theorem splitOn_last {c : Char} {t : Str} (ht : c ∉ t) : ∀ s : Str, splitOn c (s ++ c :: t) = splitOn c s ++ [t]
  | [] => by simp [splitOn, splitOn_notMem ht]
  | x :: s => by
    have ih := splitOn_last ht s
    rw [List.cons_append, splitOn, splitOn]
    by_cases hx : x = c
    · rw [if_pos hx, if_pos hx, ih]; rfl
    · rw [if_neg hx, if_neg hx, ih]
      cases hs : splitOn c s with
      | nil => exact absurd hs (splitOn_ne_nil c s)
      | cons p ps => rfl

theorem nameParts_fileName {parts : List Str} (hne : parts ≠ []) (hp : ∀ p ∈ parts, '_' ∉ p) {ext : Str}
    (he : '.' ∉ ext) : nameParts (fileName parts ext) = parts := by
  unfold nameParts fileName
  rw [splitOn_last he, List.getLastD_concat]
  have : pySlice (joinWith '_' parts ++ '.' :: ext) 0 (-((ext.length : Int) + 1)) = joinWith '_' parts := by
    unfold pySlice sliceBound
    have h1 : ((joinWith '_' parts ++ '.' :: ext).length : Int) + -((ext.length : Int) + 1) = (joinWith '_' parts).length := by
      simp only [List.length_append, List.length_cons]; push_cast; omega
    rw [if_neg (by omega), if_pos (by omega), h1]
    simp
  simp only [this]
  exact splitOn_joinWith parts hne hp

/-! ### Labels in the store -/

theorem foldl_setLabel {F : Type} : ∀ (items : List (Nat × Nat)) (labels : List Str) (s : Space F),
    (items.map Prod.snd).Nodup → items.length = labels.length →
    ((items.zip labels).foldl (fun s e => s.update e.1.2 fun d => { d with label := e.2 }) s).dict = s.dict ∧
    (∀ (k : Nat) (e : Nat × Nat) (l : Str), items[k]? = some e → labels[k]? = some l →
      ((items.zip labels).foldl (fun s e => s.update e.1.2 fun d => { d with label := e.2 }) s).heap[e.2]? =
        (s.heap[e.2]?).map fun d => { d with label := l }) ∧
    ∀ j, j ∉ items.map Prod.snd →
      ((items.zip labels).foldl (fun s e => s.update e.1.2 fun d => { d with label := e.2 }) s).heap[j]? = s.heap[j]?
  | [], labels, s, _, _ => ⟨by simp, by simp, by simp⟩
  | e :: items, [], s, _, h => by simp at h
  | e :: items, l :: labels, s, hn, hl => by
    rw [List.map_cons, List.nodup_cons] at hn
    obtain ⟨h1, h2, h3⟩ := foldl_setLabel items labels (s.update e.2 fun d => { d with label := l }) hn.2 (by simpa using hl)
    rw [List.zip_cons_cons, List.foldl_cons]
    refine ⟨h1, ?_, ?_⟩
    · intro k e' l' hk hk'
      cases k with
      | zero =>
        simp only [List.getElem?_cons_zero, Option.some.injEq] at hk hk'
        subst hk hk'
        rw [h3 e.2 hn.1, Space.update_heap?, if_pos rfl]
      | succ k =>
        simp only [List.getElem?_cons_succ] at hk hk'
        rw [h2 k e' l' hk hk', Space.update_heap?, if_neg]
        intro he
        exact hn.1 (he ▸ List.mem_map.2 ⟨e', List.mem_of_getElem? hk, rfl⟩)
    · intro j hj
      rw [List.map_cons, List.mem_cons, not_or] at hj
      rw [h3 j hj.2, Space.update_heap?, if_neg (fun h => hj.1 h.symm)]

end Cli
end Pgkyl
