import Verif.Spec.Options
import Mathlib.Data.List.Nodup
/-! # Lemmas on the option parser -/

namespace Pgkyl
namespace Options
open Spec

theorem find_keyed {α : Type} : ∀ {l : List (Text × α)}, (l.map (·.1)).Nodup → ∀ {n : Text} {x : α}, (n, x) ∈ l →
    l.find? (fun d => d.1 = n) = some (n, x)
  | [], _, _, _, h => by simp at h
  | (m, y) :: l, hn, n, x, h => by
    rw [List.map_cons, List.nodup_cons] at hn
    rcases List.mem_cons.1 h with he | he
    · cases he
      simp
    · have hne : m ≠ n := by
        rintro rfl
        exact hn.1 (List.mem_map.2 ⟨_, he, rfl⟩)
      rw [List.find?_cons_of_neg (by simpa using hne)]
      exact find_keyed hn.2 he

theorem decls_names (c : Command) : c.decls.map (·.1) = optionNames c := by
  simp only [Command.decls, optionNames, List.map_flatMap, Opt.decls]
  congr 1
  funext o
  simp [List.map_map, Function.comp_def]

theorem find_of_mem {c : Command} (hc : Clear c) {n k : Text} {a : Act} (h : (n, k, a) ∈ c.decls) : find c n = some (k, a) := by
  unfold find
  rw [find_keyed (l := c.decls.reverse) (x := (k, a)) (by rw [List.map_reverse, decls_names]; exact List.nodup_reverse.2 hc.1)
    (List.mem_reverse.2 h)]
  rfl

theorem find_eq_none {c : Command} {n : Text} (h : n ∉ optionNames c) : find c n = none := by
  unfold find
  rw [Option.map_eq_none_iff, List.find?_eq_none]
  intro d hd
  have : d.1 ∈ optionNames c := by
    rw [← decls_names]
    exact List.mem_map.2 ⟨d, List.mem_reverse.1 hd, rfl⟩
  simp only [decide_eq_true_eq]
  rintro rfl
  exact h this

theorem mem_decls {c : Command} {o : Opt} (ho : o ∈ c.opts) {n : Text} (hn : n ∈ o.names) : (n, o.key, o.kind.act) ∈ c.decls := by
  refine List.mem_flatMap.2 ⟨o, List.mem_append_left _ ho, List.mem_append_left _ (List.mem_map.2 ⟨n, hn, rfl⟩)⟩

theorem mem_decls_off {c : Command} {o : Opt} (ho : o ∈ c.opts) {n : Text} (hn : n ∈ o.off) :
    (n, o.key, Act.const "False".toList) ∈ c.decls := by
  refine List.mem_flatMap.2 ⟨o, List.mem_append_left _ ho, List.mem_append_right _ (List.mem_map.2 ⟨n, hn, rfl⟩)⟩

theorem mem_names {c : Command} {n k : Text} {a : Act} (h : (n, k, a) ∈ c.decls) : n ∈ optionNames c := by
  rw [← decls_names]
  exact List.mem_map.2 ⟨_, h, rfl⟩

theorem usable_iff {n : Text} (h : usable n = true) : ∃ a m, n = '-' :: a :: m ∧ '=' ∉ n ∧ n ≠ "--".toList := by
  unfold usable at h
  split at h
  · rename_i a m
    refine ⟨a, m, rfl, ?_, ?_⟩
    · simp only [Bool.and_eq_true, Bool.not_eq_true', List.contains_eq_mem, decide_eq_false_iff_not] at h
      exact h.1
    · intro he
      have : ('-' :: a :: m) = ['-', '-'] := he
      cases this
      simp at h
  · cases h

theorem splitEq_name {n : Text} (h : '=' ∉ n) : splitEq n = (n, none) := by
  have hp : ∀ x ∈ n, decide (x ≠ '=') = true := by
    intro x hx
    simp only [ne_eq, decide_eq_true_eq]
    rintro rfl
    exact h hx
  have := List.takeWhile_append_of_pos (l₂ := []) hp
  simp only [List.append_nil, List.takeWhile_nil] at this
  unfold splitEq
  rw [if_neg h, this]

theorem splitEq_eq {n w : Text} (h : '=' ∉ n) : splitEq (n ++ '=' :: w) = (n, some w) := by
  have hp : ∀ x ∈ n, decide (x ≠ '=') = true := by
    intro x hx
    simp only [ne_eq, decide_eq_true_eq]
    rintro rfl
    exact h hx
  unfold splitEq
  rw [if_pos (by simp), List.takeWhile_append_of_pos hp, List.dropWhile_append_of_pos hp]
  simp

theorem isShort_iff {a : Char} {m : Text} (hne : ('-' :: a :: m) ≠ "--".toList) : isShort ('-' :: a :: m) = m.isEmpty := by
  cases m with
  | nil =>
    have : a ≠ '-' := by rintro rfl; exact hne rfl
    simp [isShort, this]
  | cons b m => simp [isShort]

theorem plainWord_iff (w : Text) : plainWord w = !looksOption w := by
  unfold plainWord looksOption
  split <;> simp_all

/-- A name alone, and the words behind it. -/
theorem process_name {c : Command} (hc : Clear c) {n k : Text} {a : Act} (h : (n, k, a) ∈ c.decls) (ws : List Text) :
    processOpt c n ws = (valueFrom a ws).map fun r => ([(k, r.1)], r.2) := by
  obtain ⟨b, m, rfl, heq, hne⟩ := usable_iff (hc.2 n (mem_names h))
  unfold processOpt
  rw [splitEq_name heq]
  simp only
  have hf := find_of_mem hc h
  have hs := isShort_iff hne
  unfold findLong
  rw [hs]
  cases m with
  | nil =>
    have hb : b ≠ '-' := by rintro rfl; exact hne rfl
    have ht : ¬ (List.take 2 ['-', b] = "--".toList) := by
      intro he
      exact hne he
    simp only [List.isEmpty_nil, if_true, if_neg ht, List.tail_cons, shorts, hf]
    cases a with
    | const v => rfl
    | takes =>
      simp only [bind, Except.bind, Except.map, pure, Except.pure]
    | optional v =>
      simp only [bind, Except.bind, Except.map, pure, Except.pure]
  | cons d m =>
    simp only [List.isEmpty_cons, Bool.false_eq_true, if_false, hf]
    cases a with
    | const v => rfl
    | takes =>
      simp only [long, Option.toList_none, List.nil_append, bind, Except.bind, Except.map, pure, Except.pure]
    | optional v =>
      simp only [long, Option.toList_none, List.nil_append, bind, Except.bind, Except.map, pure, Except.pure]

theorem parseOpts_step {c : Command} {w : Text} {ws : List Text} (h1 : w ≠ "--".toList) (h2 : looksOption w = true) :
    parseOpts c (w :: ws) = (match processOpt c w ws with
      | .error e => .error e
      | .ok r => (parseOpts c r.2).map fun q => (r.1 ++ q.1, q.2)) := by
  rw [parseOpts, if_neg h1, if_pos h2]
  split <;> rename_i hq
  · rw [hq]
  · rw [hq]
    simp only
    cases parseOpts c _ <;> rfl

theorem name_looks {c : Command} (hc : Clear c) {n : Text} (h : n ∈ optionNames c) : n ≠ "--".toList ∧ looksOption n = true := by
  obtain ⟨b, m, rfl, _, hne⟩ := usable_iff (hc.2 n h)
  exact ⟨hne, rfl⟩

theorem notLong_find {c : Command} {a : Char} {m : Text} (ha : a ≠ '-') (hq : a ≠ '=') (hl : NotLong c ('-' :: a :: m)) :
    findLong c (splitEq ('-' :: a :: m)).1 = none := by
  have hs : (splitEq ('-' :: a :: m)).1 = '-' :: a :: m.takeWhile (· ≠ '=') := by
    simp [splitEq, hq]
  rw [hs]
  unfold findLong
  rw [isShort_iff (by
    intro he
    have : ('-' :: a :: m.takeWhile (· ≠ '=')) = ['-', '-'] := he
    exact ha (List.cons.inj (List.cons.inj this).2).1)]
  split
  · rfl
  · rename_i hm
    apply find_eq_none
    intro hmem
    have hlen : ('-' :: a :: m.takeWhile (· ≠ '=')).length ≠ 2 := by
      intro hlen
      simp only [List.length_cons, Nat.reduceEqDiff, List.length_eq_zero_iff] at hlen
      rw [hlen] at hm
      exact hm rfl
    refine hl _ hmem hlen ?_
    simp [hq]

theorem shorts_flags {c : Command} (hc : Clear c) (ws : List Text) : ∀ (fs : List (Char × Opt × Text)),
    (∀ f ∈ fs, f.2.1 ∈ c.opts ∧ ['-', f.1] ∈ f.2.1.names ∧ f.2.1.kind = .flag f.2.2) →
    shorts c (fs.map (·.1)) ws = .ok (fs.map fun f => (f.2.1.key, f.2.2), ws)
  | [], _ => rfl
  | f :: fs, h => by
    obtain ⟨h1, h2, h3⟩ := h f List.mem_cons_self
    have hd := find_of_mem hc (mem_decls h1 h2)
    rw [h3] at hd
    simp only [List.map_cons, shorts, hd, Kind.act, shorts_flags hc ws fs fun g hg => h g (List.mem_cons_of_mem _ hg)]
    rfl

/-- Letters behind some flags. -/
theorem shorts_append {c : Command} (hc : Clear c) (cs : Text) (ws : List Text) : ∀ (fs : List (Char × Opt × Text)),
    (∀ f ∈ fs, f.2.1 ∈ c.opts ∧ ['-', f.1] ∈ f.2.1.names ∧ f.2.1.kind = .flag f.2.2) →
    shorts c (fs.map (·.1) ++ cs) ws = (shorts c cs ws).map fun r => ((fs.map fun f => (f.2.1.key, f.2.2)) ++ r.1, r.2)
  | [], _ => by
    simp only [List.map_nil, List.nil_append]
    cases shorts c cs ws <;> rfl
  | f :: fs, h => by
    obtain ⟨h1, h2, h3⟩ := h f List.mem_cons_self
    have hd := find_of_mem hc (mem_decls h1 h2)
    rw [h3] at hd
    simp only [List.map_cons, List.cons_append, shorts, hd, Kind.act,
      shorts_append hc cs ws fs fun g hg => h g (List.mem_cons_of_mem _ hg)]
    cases shorts c cs ws <;> rfl

/-- One word of flags and other letters. -/
theorem process_flags {c : Command} (hc : Clear c) {fs : List (Char × Opt × Text)} (hne : fs ≠ [])
    (h : ∀ f ∈ fs, f.2.1 ∈ c.opts ∧ ['-', f.1] ∈ f.2.1.names ∧ f.2.1.kind = .flag f.2.2) {cs : Text}
    (hl : NotLong c ('-' :: (fs.map (·.1) ++ cs))) (ws : List Text) : ('-' :: (fs.map (·.1) ++ cs)) ≠ "--".toList ∧
    looksOption ('-' :: (fs.map (·.1) ++ cs)) = true ∧
    processOpt c ('-' :: (fs.map (·.1) ++ cs)) ws =
      (shorts c cs ws).map fun r => ((fs.map fun f => (f.2.1.key, f.2.2)) ++ r.1, r.2) := by
  obtain ⟨f, fs, rfl⟩ := List.exists_cons_of_ne_nil hne
  obtain ⟨g1, g2, g3⟩ := h f List.mem_cons_self
  have hd := mem_decls g1 g2
  obtain ⟨b, m, he, heq, hne'⟩ := usable_iff (hc.2 _ (mem_names hd))
  have hb : f.1 ≠ '-' := by intro hf; rw [hf] at hne'; exact hne' rfl
  have hq : f.1 ≠ '=' := by intro hf; rw [hf] at heq; simp at heq
  refine ⟨?_, rfl, ?_⟩
  · intro he
    have : ('-' :: f.1 :: (fs.map (·.1) ++ cs)) = ['-', '-'] := he
    simp only [List.cons.injEq, true_and] at this
    exact hb this.1
  · rw [← shorts_append hc cs ws (f :: fs) h]
    unfold processOpt
    rw [List.map_cons, List.cons_append] at hl ⊢
    rw [notLong_find hb hq hl]
    have ht : ¬ (List.take 2 ('-' :: f.1 :: (fs.map (·.1) ++ cs)) = "--".toList) := by
      intro he
      have : ['-', f.1] = ['-', '-'] := he
      simp only [List.cons.injEq, true_and, and_true] at this
      exact hb this
    simp only [if_neg ht, List.tail_cons]

theorem written_parse {c : Command} (hc : Clear c) {ws : List Text} {es : List (Text × Text)} (h : Written c ws es) (ws' : List Text) :
    parseOpts c (ws ++ ws') = (parseOpts c ws').map fun q => (es ++ q.1, q.2) := by
  cases h with
  | @flag o n v ho hk hn =>
    have hd := mem_decls ho hn
    obtain ⟨h1, h2⟩ := name_looks hc (mem_names hd)
    rw [List.singleton_append, parseOpts_step h1 h2, process_name hc hd, hk]
    rfl
  | @off o n ho hn =>
    have hd := mem_decls_off ho hn
    obtain ⟨h1, h2⟩ := name_looks hc (mem_names hd)
    rw [List.singleton_append, parseOpts_step h1 h2, process_name hc hd]
    rfl
  | @value o n w ho hk hn =>
    have hd := mem_decls ho hn
    obtain ⟨h1, h2⟩ := name_looks hc (mem_names hd)
    rw [List.cons_append, List.singleton_append, parseOpts_step h1 h2, process_name hc hd]
    rcases hk with hk | hk <;> rw [hk] <;> rfl
  | @optional o n v w ho hk hn hp =>
    have hd := mem_decls ho hn
    obtain ⟨h1, h2⟩ := name_looks hc (mem_names hd)
    rw [plainWord_iff] at hp
    have hp' : looksOption w = false := by simpa using hp
    rw [List.cons_append, List.singleton_append, parseOpts_step h1 h2, process_name hc hd, hk]
    simp only [Kind.act, valueFrom, hp', Bool.false_eq_true, if_false]
    rfl
  | @equals o n w ho hk hn ht =>
    have hd := mem_decls ho hn
    obtain ⟨b, m, rfl, heq, hne⟩ := usable_iff (hc.2 n (mem_names hd))
    have h1 : ('-' :: b :: m ++ '=' :: w) ≠ "--".toList := by
      intro he
      have : ('-' :: b :: (m ++ '=' :: w)) = ['-', '-'] := he
      simp at this
    rw [List.singleton_append, parseOpts_step h1 rfl]
    have hp : processOpt c ('-' :: b :: m ++ '=' :: w) ws' = .ok ([(o.key, w)], ws') := by
      have hm : m.isEmpty = false := by
        cases m with
        | nil => simp [two] at ht
        | cons _ _ => rfl
      unfold processOpt
      rw [splitEq_eq heq]
      unfold findLong
      rw [isShort_iff hne, hm, find_of_mem hc hd]
      rcases hk with hk | hk <;> rw [hk] <;> rfl
    rw [hp]
  | @attached o n w ho hk hn ht hw hl =>
    have hd := mem_decls ho hn
    obtain ⟨b, m, rfl, heq, hne⟩ := usable_iff (hc.2 n (mem_names hd))
    have hm : m = [] := by
      cases m with
      | nil => rfl
      | cons _ _ => simp [two] at ht
    subst hm
    have hb : b ≠ '-' := by rintro rfl; exact hne rfl
    have hq : b ≠ '=' := by rintro rfl; simp at heq
    obtain ⟨x, w, rfl⟩ := List.exists_cons_of_ne_nil hw
    have h1 : ['-', b] ++ x :: w ≠ "--".toList := by
      intro he
      have : ('-' :: b :: x :: w) = ['-', '-'] := he
      simp at this
    rw [List.singleton_append, parseOpts_step h1 rfl]
    have hp : processOpt c (['-', b] ++ x :: w) ws' = .ok ([(o.key, x :: w)], ws') := by
      unfold processOpt
      have := notLong_find (m := x :: w) hb hq hl
      rw [show ['-', b] ++ x :: w = '-' :: b :: x :: w from rfl, this]
      have ht : ¬ (List.take 2 ('-' :: b :: x :: w) = "--".toList) := by
        intro he
        exact hne he
      simp only [if_neg ht, List.tail_cons, shorts, find_of_mem hc hd]
      rcases hk with hk | hk <;> rw [hk] <;> rfl
    rw [hp]
  | @flags fs hne h hl =>
    obtain ⟨f, fs, rfl⟩ := List.exists_cons_of_ne_nil hne
    obtain ⟨g1, g2, g3⟩ := h f List.mem_cons_self
    have hd := mem_decls g1 g2
    obtain ⟨b, m, he, heq, hne'⟩ := usable_iff (hc.2 _ (mem_names hd))
    have hb : f.1 ≠ '-' := by intro hf; rw [hf] at hne'; exact hne' rfl
    have hq : f.1 ≠ '=' := by intro hf; rw [hf] at heq; simp at heq
    have h1 : ('-' :: (f :: fs).map (·.1)) ≠ "--".toList := by
      intro he
      have : ('-' :: f.1 :: fs.map (·.1)) = ['-', '-'] := he
      simp only [List.cons.injEq, true_and] at this
      exact hb this.1
    rw [List.singleton_append, parseOpts_step h1 rfl]
    have hp : processOpt c ('-' :: (f :: fs).map (·.1)) ws' = .ok ((f :: fs).map (fun f => (f.2.1.key, f.2.2)), ws') := by
      unfold processOpt
      rw [List.map_cons] at hl ⊢
      rw [notLong_find hb hq hl]
      have ht : ¬ (List.take 2 ('-' :: f.1 :: fs.map (·.1)) = "--".toList) := by
        intro he
        have : ['-', f.1] = ['-', '-'] := he
        simp only [List.cons.injEq, true_and, and_true] at this
        exact hb this
      simp only [if_neg ht, List.tail_cons]
      exact shorts_flags hc ws' (f :: fs) h
    rw [hp]

  | @flagsValue fs o ch w hne h ho hk hn hl =>
    obtain ⟨h1, h2, h3⟩ := process_flags hc hne h hl (w :: ws')
    rw [List.cons_append, List.singleton_append, parseOpts_step h1 h2, h3]
    simp only [shorts, find_of_mem hc (mem_decls ho hn)]
    rcases hk with hk | hk <;> rw [hk] <;> rfl
  | @flagsAttached fs o ch w hne h ho hk hn hw hl =>
    obtain ⟨h1, h2, h3⟩ := process_flags hc hne h hl ws'
    rw [List.singleton_append, parseOpts_step h1 h2, h3]
    simp only [shorts, find_of_mem hc (mem_decls ho hn), if_neg hw]
    rcases hk with hk | hk <;> rw [hk] <;> rfl

theorem line_parse {c : Command} (hc : Clear c) {ws rest : List Text} {es : List (Text × Text)} (h : Line c ws es rest) :
    parseOpts c ws = .ok (es, rest) := by
  induction h with
  | nil => rw [parseOpts]
  | @stop w rest hp =>
    rw [plainWord_iff] at hp
    have hp' : looksOption w = false := by simpa using hp
    have hw : w ≠ "--".toList := by rintro rfl; simp [looksOption] at hp'
    rw [parseOpts, if_neg hw, hp']
    rfl
  | dashes => rw [parseOpts, if_pos rfl]
  | cons hw _ ih => rw [written_parse hc hw, ih]; rfl
  | @left o n v ws rest es ho hk hn hh _ ih =>
    have hd := mem_decls ho hn
    obtain ⟨h1, h2⟩ := name_looks hc (mem_names hd)
    rw [parseOpts_step h1 h2, process_name hc hd, hk]
    have : valueFrom (Kind.optional v).act ws = .ok (v, ws) := by
      cases ws with
      | nil => rfl
      | cons w ws =>
        have := hh w rfl
        rw [plainWord_iff] at this
        have hl : looksOption w = true := by simpa using this
        simp [Kind.act, valueFrom, hl]
    rw [this]
    simp only [Except.map, ih]
    rfl

theorem takeArgs_zip : ∀ {args as : List Text}, as.length = args.length → ∀ rest : List Text,
    takeArgs args (as ++ rest) = .ok (args.zip as, rest)
  | [], as, h, rest => by
    have : as = [] := List.length_eq_zero_iff.1 h
    subst this
    rfl
  | a :: args, [], h, rest => by simp at h
  | a :: args, w :: as, h, rest => by
    simp only [List.cons_append, takeArgs, takeArgs_zip (Nat.succ.inj h) rest]
    rfl

theorem table_find {table : List Command} (h : (table.map Command.name).Nodup) : ∀ {c : Command}, c ∈ table →
    table.find? (fun d => d.name = c.name) = some c := by
  induction table with
  | nil => intro c hc; simp at hc
  | cons d t ih =>
    intro c hc
    rw [List.map_cons, List.nodup_cons] at h
    rcases List.mem_cons.1 hc with rfl | hc
    · simp
    · have : d.name ≠ c.name := by
        intro he
        exact h.1 (he ▸ List.mem_map.2 ⟨c, hc, rfl⟩)
      rw [List.find?_cons_of_neg (by simpa using this)]
      exact ih h.2 hc

theorem filter_one {table : List Command} (h : (table.map Command.name).Nodup) {w : Text} {c : Command} (hc : c ∈ table) (hw : w <+: c.name)
    (hu : ∀ d ∈ table, w <+: d.name → d = c) : (table.map Command.name).filter (Cli.startsWith w) = [c.name] := by
  induction table with
  | nil => simp at hc
  | cons d t ih =>
    rw [List.map_cons, List.nodup_cons] at h
    rw [List.map_cons]
    rcases List.mem_cons.1 hc with rfl | hc'
    · have hr : (t.map Command.name).filter (Cli.startsWith w) = [] := by
        rw [List.filter_eq_nil_iff]
        intro x hx
        obtain ⟨e, he, rfl⟩ := List.mem_map.1 hx
        simp only [Cli.startsWith, List.isPrefixOf_iff_prefix]
        intro hp
        have := hu e (List.mem_cons_of_mem _ he) hp
        subst this
        exact h.1 hx
      rw [List.filter_cons_of_pos (by simpa [Cli.startsWith] using hw), hr]
    · have hd : ¬ w <+: d.name := by
        intro hp
        have := hu d List.mem_cons_self hp
        subst this
        exact h.1 (List.mem_map.2 ⟨_, hc', rfl⟩)
      rw [List.filter_cons_of_neg (by simpa [Cli.startsWith] using hd)]
      exact ih h.2 hc' fun e he => hu e (List.mem_cons_of_mem _ he)

theorem getCommand_names {table : List Command} (h : (table.map Command.name).Nodup) {w : Text} {c : Command} (hc : c ∈ table)
    (hw : CalledBy table w c) (glob : Text → List Text) (strs : List Text) :
    Cli.getCommand (table.map Command.name) glob strs w = .ok (c.name, strs) := by
  unfold Cli.getCommand
  rcases hw with rfl | ⟨h1, h2, h3⟩
  · rw [if_pos (List.mem_map.2 ⟨c, hc, rfl⟩)]
  · have hn : w ∉ table.map Command.name := by
      intro hm
      obtain ⟨d, hd, he⟩ := List.mem_map.1 hm
      exact h1 d hd he
    rw [if_neg hn, filter_one h hc h2 h3]

theorem chain_parse {table : List Command} {glob : Text → List Text} (h : (table.map Command.name).Nodup) {ws files : List Text}
    {calls : List Call} (hc : Chained table glob ws calls files) : ∀ strs, parseChain table glob strs ws = .ok (calls, strs ++ files) := by
  induction hc with
  | nil => intro strs; rw [parseChain]; simp
  | @call c w ws as rest files es calls hm hcl hw hlen hl _ ih =>
    intro strs
    have hg := getCommand_names h hm hw glob strs
    have hp : parseCommand c ws = .ok (es ++ c.args.zip as, rest) := by
      unfold parseCommand
      rw [line_parse hcl hl]
      simp only [bind, Except.bind, takeArgs_zip hlen rest]
      rfl
    rw [parseChain, hg]
    simp only [table_find h hm]
    split <;> rename_i hq
    · rw [hp] at hq; cases hq
    · rw [hp] at hq
      cases hq
      simp only [ih strs]
  | @file c f ws rest files es calls hm hcl hname hargs hno hglob hl _ ih =>
    intro strs
    have hg : Cli.getCommand (table.map Command.name) glob strs f = .ok (c.name, strs ++ [f]) := by
      unfold Cli.getCommand
      have h1 : f ∉ table.map Command.name := by
        intro hf
        obtain ⟨d, hd, rfl⟩ := List.mem_map.1 hf
        exact hno d hd (List.prefix_refl _)
      have h2 : (table.map Command.name).filter (Cli.startsWith f) = [] := by
        rw [List.filter_eq_nil_iff]
        intro x hx
        obtain ⟨d, hd, rfl⟩ := List.mem_map.1 hx
        simp only [Cli.startsWith, List.isPrefixOf_iff_prefix]
        exact hno d hd
      rw [if_neg h1, h2]
      simp only [ne_eq, hglob, not_false_eq_true, if_true, hname]
    have hp : parseCommand c ws = .ok (es, rest) := by
      unfold parseCommand
      rw [line_parse hcl hl, hargs]
      simp only [bind, Except.bind, takeArgs]
      simp [pure, Except.pure]
    rw [parseChain, hg]
    simp only [table_find h hm]
    split <;> rename_i hq
    · rw [hp] at hq; cases hq
    · rw [hp] at hq
      cases hq
      simp only [ih (strs ++ [f]), List.append_assoc, List.singleton_append]

end Options
end Pgkyl
