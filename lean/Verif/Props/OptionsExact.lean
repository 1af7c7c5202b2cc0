import Verif.Props.Options
/-! # C168: nothing but what can be written is accepted -/

namespace Pgkyl
open Spec Options

/-- A command all of whose options are flags or take a value, and whose names that switch a flag off are long. -/
def Spec.NoOptional (c : Command) : Prop :=
  ∀ o ∈ c.opts, (match o.kind with | .optional _ => false | _ => true) = true ∧ ∀ n ∈ o.off, two n = false

instance (c : Command) : Decidable (NoOptional c) := by unfold NoOptional; infer_instance

/-! ## Nothing else is accepted -/

namespace Options

/-- An option found by its name is one of the command, unless it asks for help. -/
theorem decl_own {c : Command} (hs : NoOptional c) {n k : Text} {a : Act} (h : (n, k, a) ∈ c.decls) (hk : k ≠ "help".toList) :
    ∃ o ∈ c.opts, o.key = k ∧ ((∃ v, n ∈ o.names ∧ o.kind = .flag v ∧ a = .const v) ∨ (n ∈ o.off ∧ a = .const "False".toList) ∨
      (n ∈ o.names ∧ (o.kind = .value ∨ o.kind = .many) ∧ a = .takes)) := by
  obtain ⟨o, ho, hkey, h⟩ := decl_opt h
  have ho' : o ∈ c.opts := by
    rcases List.mem_append.1 ho with ho | ho
    · exact ho
    · rw [List.mem_singleton] at ho
      subst ho
      exact absurd hkey.symm hk
  refine ⟨o, ho', hkey, ?_⟩
  rcases h with ⟨hn, ha⟩ | h
  · have := (hs o ho').1
    cases hkind : o.kind with
    | flag v => rw [hkind] at ha; exact Or.inl ⟨v, hn, rfl, ha.symm⟩
    | value => rw [hkind] at ha; exact Or.inr (Or.inr ⟨hn, Or.inl rfl, ha.symm⟩)
    | many => rw [hkind] at ha; exact Or.inr (Or.inr ⟨hn, Or.inr rfl, ha.symm⟩)
    | optional v => rw [hkind] at this; cases this
  · exact Or.inr (Or.inl h)

theorem shorts_converse {c : Command} (hs : NoOptional c) : ∀ {cs : Text} {ws : List Text} {r : List (Text × Text) × List Text},
    shorts c cs ws = .ok r → (∀ e ∈ r.1, e.1 ≠ "help".toList) →
    ∃ fs : List (Char × Opt × Text),
      (∀ f ∈ fs, f.2.1 ∈ c.opts ∧ ['-', f.1] ∈ f.2.1.names ∧ f.2.1.kind = .flag f.2.2) ∧
      ((cs = fs.map (·.1) ∧ r = (fs.map fun f => (f.2.1.key, f.2.2), ws)) ∨
        ∃ o ch w, o ∈ c.opts ∧ (o.kind = .value ∨ o.kind = .many) ∧ ['-', ch] ∈ o.names ∧
          r.1 = (fs.map fun f => (f.2.1.key, f.2.2)) ++ [(o.key, w)] ∧
          ((cs = fs.map (·.1) ++ [ch] ∧ ws = w :: r.2) ∨ (w ≠ [] ∧ cs = fs.map (·.1) ++ ch :: w ∧ ws = r.2)))
  | [], ws, r, h, _ => by
    cases h
    exact ⟨[], by simp, Or.inl ⟨rfl, rfl⟩⟩
  | ch :: cs, ws, r, h, hh => by
    unfold shorts at h
    split at h
    · cases h
    · rename_i key v hf
      cases hq : shorts c cs ws with
      | error e => rw [hq] at h; cases h
      | ok q =>
        rw [hq] at h
        cases h
        have hkey : key ≠ "help".toList := hh (key, v) List.mem_cons_self
        obtain ⟨o, ho, hk, hc⟩ := decl_own hs (find_mem hf) hkey
        have hflag : ['-', ch] ∈ o.names ∧ o.kind = .flag v := by
          rcases hc with ⟨v', h1, h2, h3⟩ | ⟨h1, _⟩ | ⟨_, _, h3⟩
          · cases h3; exact ⟨h1, h2⟩
          · have := (hs o ho).2 _ h1
            simp [two] at this
          · cases h3
        obtain ⟨fs, hfs, hor⟩ := shorts_converse hs hq fun e he => hh e (List.mem_cons_of_mem _ he)
        refine ⟨(ch, o, v) :: fs, ?_, ?_⟩
        · intro f hf
          rcases List.mem_cons.1 hf with rfl | hf
          · exact ⟨ho, hflag⟩
          · exact hfs f hf
        · subst hk
          rcases hor with ⟨h1, h2⟩ | ⟨o', ch', w, g1, g2, g3, g4, g5⟩
          · left
            rw [h1, h2]
            exact ⟨rfl, rfl⟩
          · right
            refine ⟨o', ch', w, g1, g2, g3, by simp only [g4, List.map_cons, List.cons_append], ?_⟩
            rcases g5 with ⟨g5, g6⟩ | ⟨g5, g6, g7⟩
            · exact Or.inl ⟨by rw [g5]; rfl, g6⟩
            · exact Or.inr ⟨g5, by rw [g6]; rfl, g7⟩
    · rename_i key act hna hf
      cases hv : valueFrom act (if cs = [] then ws else cs :: ws) with
      | error e => rw [hv] at h; cases h
      | ok q =>
        rw [hv] at h
        cases h
        have hkey : key ≠ "help".toList := hh (key, q.1) List.mem_cons_self
        obtain ⟨o, ho, hk, hc⟩ := decl_own hs (find_mem hf) hkey
        have hval : ['-', ch] ∈ o.names ∧ (o.kind = .value ∨ o.kind = .many) ∧ act = .takes := by
          rcases hc with ⟨v', _, _, h3⟩ | ⟨_, h3⟩ | h
          · exact absurd h3 (hna _)
          · exact absurd h3 (hna _)
          · exact h
        obtain ⟨hn, hkind, rfl⟩ := hval
        subst hk
        refine ⟨[], by simp, Or.inr ⟨o, ch, q.1, ho, hkind, hn, rfl, ?_⟩⟩
        by_cases hcs : cs = []
        · subst hcs
          rw [if_pos rfl] at hv
          cases ws with
          | nil => cases hv
          | cons w ws => cases hv; exact Or.inl ⟨rfl, rfl⟩
        · rw [if_neg hcs] at hv
          cases hv
          exact Or.inr ⟨hcs, rfl, rfl⟩

theorem findLong_none {c : Command} {w : Text} (h : findLong c (splitEq w).1 = none) : NotLong c w := by
  intro n hn hlen he
  have he' : (splitEq w).1 = n := he.symm
  rw [he'] at h
  unfold findLong at h
  have hsh : isShort n = false := by
    unfold isShort
    split
    · simp at hlen
    · rfl
  rw [hsh] at h
  simp only [Bool.false_eq_true, if_false] at h
  unfold find at h
  rw [Option.map_eq_none_iff, List.find?_eq_none] at h
  rw [← decls_names] at hn
  obtain ⟨d, hd, hdn⟩ := List.mem_map.1 hn
  exact h d (List.mem_reverse.2 hd) (by simpa using hdn)

theorem splitEq_join : ∀ (w : Text), ((splitEq w).2 = none → w = (splitEq w).1) ∧
    ∀ v, (splitEq w).2 = some v → w = (splitEq w).1 ++ '=' :: v
  | [] => ⟨fun _ => rfl, fun v h => by simp [splitEq] at h⟩
  | a :: w => by
    obtain ⟨h1, h2⟩ := splitEq_join w
    by_cases ha : a = '='
    · subst ha
      refine ⟨fun h => by simp [splitEq] at h, fun v h => ?_⟩
      simp [splitEq] at h
      simp [splitEq, h]
    · have hs : splitEq (a :: w) = (a :: (splitEq w).1, (splitEq w).2) := by
        simp [splitEq, ha, Ne.symm ha]
      rw [hs]
      exact ⟨fun h => by rw [← h1 h], fun v h => by rw [List.cons_append, ← h2 v h]⟩

theorem process_converse {c : Command} (hc : Clear c) (hs : NoOptional c) {w : Text} {ws : List Text} {r : List (Text × Text) × List Text}
    (hw : looksOption w = true) (h : processOpt c w ws = .ok r) (hh : ∀ e ∈ r.1, e.1 ≠ "help".toList) :
    ∃ used, w :: ws = used ++ r.2 ∧ Written c used r.1 := by
  unfold processOpt at h
  split at h
  · rename_i key act hf
    obtain ⟨hj1, hj2⟩ := splitEq_join w
    generalize hn : (splitEq w).1 = n at *
    generalize he : (splitEq w).2 = e at *
    unfold findLong at hf
    split at hf
    · cases hf
    · rename_i hsh
      have hd := find_mem hf
      obtain ⟨b, m, hbm, heq, hne⟩ := usable_iff (hc.2 n (mem_names hd))
      have htwo : two n = false := by
        rw [hbm] at hsh hne ⊢
        rw [isShort_iff hne] at hsh
        cases m with
        | nil => simp at hsh
        | cons x m => simp [two]
      unfold long at h
      split at h
      · cases h
      · rename_i a e' hno
        cases hv : valueFrom act (e.toList ++ ws) with
        | error x => rw [hv] at h; cases h
        | ok q =>
          rw [hv] at h
          cases h
          have hkey : key ≠ "help".toList := hh (key, q.1) List.mem_cons_self
          obtain ⟨o, ho, hk, hor⟩ := decl_own hs hd hkey
          subst hk
          rcases hor with ⟨v, h1, h2, h3⟩ | ⟨h1, h3⟩ | ⟨h1, h2, h3⟩
          · subst h3
            cases e with
            | some x => exact absurd rfl (hno v x rfl)
            | none =>
              cases hv
              rw [hj1 rfl]
              exact ⟨[n], rfl, .flag ho h2 h1⟩
          · subst h3
            cases e with
            | some x => exact absurd rfl (hno _ x rfl)
            | none =>
              cases hv
              rw [hj1 rfl]
              exact ⟨[n], rfl, .off ho h1⟩
          · subst h3
            cases e with
            | some x =>
              cases hv
              rw [hj2 x rfl]
              exact ⟨[_], rfl, .equals ho h2 h1 htwo⟩
            | none =>
              cases ws with
              | nil => cases hv
              | cons y ws =>
                cases hv
                rw [hj1 rfl]
                exact ⟨[n, y], rfl, .value ho h2 h1⟩
  · rename_i hf
    have hl := findLong_none hf
    split at h
    · cases h
    · obtain ⟨a, w, rfl⟩ : ∃ a m, w = '-' :: a :: m := by
        unfold looksOption at hw
        split at hw
        · exact ⟨_, _, rfl⟩
        · cases hw
      rw [List.tail_cons] at h
      obtain ⟨fs, hfs, hor⟩ := shorts_converse hs h hh
      rcases hor with ⟨h1, h2⟩ | ⟨o, ch, v, g1, g2, g3, g4, g5⟩
      · rw [h1] at hl ⊢
        rw [h2]
        refine ⟨[_], rfl, .flags ?_ hfs hl⟩
        rintro rfl
        simp at h1
      · rw [g4]
        by_cases hnil : fs = []
        · subst hnil
          rcases g5 with ⟨g5, g6⟩ | ⟨g5, g6, g7⟩
          · rw [g5, g6]
            exact ⟨[_, v], rfl, .value g1 g2 g3⟩
          · rw [g6] at hl ⊢
            rw [g7]
            exact ⟨[_], rfl, .attached (n := ['-', ch]) g1 g2 g3 rfl g5 hl⟩
        · rcases g5 with ⟨g5, g6⟩ | ⟨g5, g6, g7⟩
          · rw [g5] at hl ⊢
            rw [g6]
            exact ⟨[_, v], rfl, .flagsValue hnil hfs g1 g2 g3 hl⟩
          · rw [g6] at hl ⊢
            rw [g7]
            exact ⟨[_], rfl, .flagsAttached hnil hfs g1 g2 g3 g5 hl⟩

theorem parse_converse {c : Command} (hc : Clear c) (hs : NoOptional c) : ∀ (n : Nat) {ws : List Text}, size ws ≤ n →
    ∀ {es : List (Text × Text)} {rest : List Text}, parseOpts c ws = .ok (es, rest) → (∀ e ∈ es, e.1 ≠ "help".toList) →
    Line c ws es rest := by
  intro n
  induction n with
  | zero =>
    intro ws hn es rest h _
    cases ws with
    | nil => rw [parseOpts] at h; cases h; exact .nil
    | cons w ws => rw [size_cons] at hn; omega
  | succ n ih =>
    intro ws hn es rest h hh
    cases ws with
    | nil => rw [parseOpts] at h; cases h; exact .nil
    | cons w ws =>
      by_cases h1 : w = "--".toList
      · rw [parseOpts, if_pos h1] at h
        cases h
        rw [h1]
        exact .dashes
      · cases h2 : looksOption w with
        | false =>
          rw [parseOpts, if_neg h1, h2] at h
          cases h
          exact .stop (by rw [plainWord_iff, h2]; rfl)
        | true =>
          rw [parseOpts_step h1 h2] at h
          cases hp : processOpt c w ws with
          | error e => rw [hp] at h; cases h
          | ok r =>
            rw [hp] at h
            simp only at h
            cases hq : parseOpts c r.2 with
            | error e => rw [hq] at h; cases h
            | ok q =>
              rw [hq] at h
              cases h
              obtain ⟨used, hu, hwr⟩ := process_converse hc hs h2 hp fun e he => hh e (List.mem_append_left _ he)
              rw [hu]
              have := processOpt_size hp
              exact .cons hwr (ih (by omega) hq fun e he => hh e (List.mem_append_right _ he))

end Options

/-- **C168**: for a command whose options can be told apart, Click accepts exactly what can be written by the grammar, with what it
means by the grammar; the rest is refused. -/
theorem C168_exact {c : Command} (hc : Clear c) (hs : NoOptional c) {ws rest : List Text} {es : List (Text × Text)}
    (hh : ∀ e ∈ es, e.1 ≠ "help".toList) : parseOpts c ws = .ok (es, rest) ↔ Line c ws es rest :=
  ⟨fun h => parse_converse hc hs _ (Nat.le_refl _) h hh, fun h => line_parse hc h⟩

/-- **C168**: words that cannot be written by the grammar are refused, or ask for help. -/
theorem C168_refused {c : Command} (hc : Clear c) (hs : NoOptional c) {ws : List Text} (h : ∀ es rest, ¬ Line c ws es rest) :
    (∃ e, parseOpts c ws = .error e) ∨ ∃ es rest, parseOpts c ws = .ok (es, rest) ∧ ∃ e ∈ es, e.1 = "help".toList := by
  cases hp : parseOpts c ws with
  | error e => exact Or.inl ⟨e, rfl⟩
  | ok r =>
    right
    refine ⟨r.1, r.2, rfl, ?_⟩
    by_contra hno
    exact h r.1 r.2 ((C168_exact hc hs fun e he hk => hno ⟨e, he, hk⟩).1 hp)

/-- **C168**: 35 of the 40 commands, and `pgkyl` itself, are such commands. -/
theorem C168_exact_table : (∀ c ∈ commands, c.name ∉ ["animate", "mask", "gk-nodes", "gk-energy-balance", "gk-particle-balance"].map
    String.toList → Clear c ∧ NoOptional c) ∧ (Clear cmd_cli ∧ NoOptional cmd_cli) ∧
    (commands.filter fun c => c.name ∉ ["animate", "mask", "gk-nodes", "gk-energy-balance", "gk-particle-balance"].map
      String.toList).length = 35 := by
  decide +kernel

namespace Options

theorem name_inj {table : List Command} (h : (table.map Command.name).Nodup) {c d : Command} (hc : c ∈ table) (hd : d ∈ table)
    (he : d.name = c.name) : d = c := by
  have h1 := table_find h hc
  have h2 := table_find h hd
  rw [he, h1] at h2
  exact (Option.some.inj h2).symm

theorem takeArgs_converse : ∀ {args ws : List Text} {r : List (Text × Text) × List Text}, takeArgs args ws = .ok r →
    ∃ as : List Text, as.length = args.length ∧ ws = as ++ r.2 ∧ r.1 = args.zip as
  | [], ws, r, h => by
    cases h
    exact ⟨[], rfl, rfl, rfl⟩
  | _ :: _, [], r, h => by cases h
  | a :: args, w :: ws, r, h => by
    unfold takeArgs at h
    cases hq : takeArgs args ws with
    | error e => rw [hq] at h; cases h
    | ok q =>
      rw [hq] at h
      cases h
      obtain ⟨as, h1, h2, h3⟩ := takeArgs_converse hq
      exact ⟨w :: as, by simp [h1], by rw [h2]; rfl, by rw [h3]; rfl⟩

theorem command_converse {c : Command} (hc : Clear c) (hs : NoOptional c) {ws : List Text} {r : List (Text × Text) × List Text}
    (h : parseCommand c ws = .ok r) (hh : ∀ e ∈ r.1, e.1 ≠ "help".toList) :
    ∃ es as, as.length = c.args.length ∧ Line c ws es (as ++ r.2) ∧ r.1 = es ++ c.args.zip as := by
  unfold parseCommand at h
  cases hq : parseOpts c ws with
  | error e => rw [hq] at h; cases h
  | ok q =>
    rw [hq] at h
    cases ht : takeArgs c.args q.2 with
    | error e => simp only [bind, Except.bind, ht] at h; cases h
    | ok t =>
      simp only [bind, Except.bind, ht] at h
      cases h
      obtain ⟨as, h1, h2, h3⟩ := takeArgs_converse ht
      refine ⟨q.1, as, h1, ?_, by simp only [h3]⟩
      have := (C168_exact hc hs (es := q.1) (rest := q.2) fun e he => hh e (List.mem_append_left _ he)).1 hq
      rw [h2] at this
      exact this

theorem getCommand_converse {table : List Command} (h : (table.map Command.name).Nodup) {glob : Text → List Text} {strs : List Text}
    {w name : Text} {strs' : List Text} (hg : Cli.getCommand (table.map Command.name) glob strs w = .ok (name, strs')) {c : Command}
    (hc : c ∈ table) (hn : c.name = name) : (CalledBy table w c ∧ strs' = strs) ∨
      (name = "load".toList ∧ (∀ d ∈ table, ¬ w <+: d.name) ∧ glob w ≠ [] ∧ strs' = strs ++ [w]) := by
  unfold Cli.getCommand at hg
  split at hg
  · cases hg
    exact Or.inl ⟨Or.inl hn.symm, rfl⟩
  · rename_i hw
    split at hg
    · rename_i m hm
      cases hg
      have hmem : name ∈ (table.map Command.name).filter (Cli.startsWith w) := by rw [hm]; exact List.mem_singleton.2 rfl
      refine Or.inl ⟨Or.inr ⟨?_, ?_, ?_⟩, rfl⟩
      · intro d hd he
        exact hw (List.mem_map.2 ⟨d, hd, he⟩)
      · rw [hn]
        simpa [Cli.startsWith] using (List.mem_filter.1 hmem).2
      · intro d hd hp
        have : d.name ∈ (table.map Command.name).filter (Cli.startsWith w) :=
          List.mem_filter.2 ⟨List.mem_map.2 ⟨d, hd, rfl⟩, by simpa [Cli.startsWith] using hp⟩
        rw [hm, List.mem_singleton] at this
        exact name_inj h hc hd (this.trans hn.symm)
    · cases hg
    · rename_i hm
      split at hg
      · rename_i hglob
        cases hg
        refine Or.inr ⟨rfl, ?_, hglob, rfl⟩
        intro d hd hp
        rw [List.filter_eq_nil_iff] at hm
        exact hm d.name (List.mem_map.2 ⟨d, hd, rfl⟩) (by simpa [Cli.startsWith] using hp)
      · cases hg

theorem chain_converse {table : List Command} {glob : Text → List Text} (h : (table.map Command.name).Nodup)
    (hload : ∀ c ∈ table, c.name = "load".toList → c.args = []) : ∀ (n : Nat) {ws : List Text}, size ws ≤ n →
    ∀ {strs files' : List Text} {calls : List Call}, parseChain table glob strs ws = .ok (calls, files') →
    (∀ call ∈ calls, (∀ e ∈ call.given, e.1 ≠ "help".toList) ∧ ∀ c ∈ table, c.name = call.name → Clear c ∧ NoOptional c) →
    ∃ files, files' = strs ++ files ∧ Chained table glob ws calls files := by
  intro n
  induction n with
  | zero =>
    intro ws hn strs files' calls hp _
    cases ws with
    | nil => rw [parseChain] at hp; cases hp; exact ⟨[], by simp, .nil⟩
    | cons w ws => rw [size_cons] at hn; omega
  | succ n ih =>
    intro ws hn strs files' calls hp hh
    cases ws with
    | nil => rw [parseChain] at hp; cases hp; exact ⟨[], by simp, .nil⟩
    | cons w ws =>
      rw [parseChain] at hp
      cases hg : Cli.getCommand (table.map Command.name) glob strs w with
      | error e => rw [hg] at hp; cases hp
      | ok g =>
        obtain ⟨name, strs'⟩ := g
        rw [hg] at hp
        simp only at hp
        cases hf : table.find? fun c => c.name = name with
        | none => simp only [hf] at hp; cases hp
        | some c =>
          simp only [hf] at hp
          have hc := List.mem_of_find?_eq_some hf
          have hname : c.name = name := by simpa using List.find?_some hf
          split at hp
          · cases hp
          · rename_i r hr
            cases hq : parseChain table glob strs' r.2 with
            | error e => rw [hq] at hp; cases hp
            | ok q =>
              rw [hq] at hp
              cases hp
              obtain ⟨hh1, hh2⟩ := hh ⟨c.name, r.1⟩ List.mem_cons_self
              obtain ⟨hcl, hno⟩ := hh2 c hc rfl
              obtain ⟨es, as, h1, h2, h3⟩ := command_converse hcl hno hr hh1
              have hsz := parseCommand_size hr
              rw [size_cons] at hn
              obtain ⟨files, h4, h5⟩ := ih (ws := r.2) (by omega) hq fun call hcall => hh call (List.mem_cons_of_mem _ hcall)
              rcases getCommand_converse h hg hc hname with ⟨h6, h7⟩ | ⟨h6, h7, h8, h9⟩
              · refine ⟨files, by rw [h4, h7], ?_⟩
                rw [h3]
                exact .call hc hcl h6 h1 h2 h5
              · have hargs := hload c hc (hname.trans h6)
                refine ⟨w :: files, by rw [h4, h9]; simp, ?_⟩
                rw [hargs] at h1 h3
                have : as = [] := List.length_eq_zero_iff.1 h1
                subst this
                rw [h3]
                simp only [List.zip_nil_left, List.append_nil]
                exact .file hc hcl (hname.trans h6) hargs h7 h8 h2 h5

end Options

/-- The commands whose options cannot be told apart, and those with options whose value may be left out. -/
def Spec.special : List Text := ["animate", "mask", "gk-nodes", "gk-energy-balance", "gk-particle-balance"].map String.toList

/-- **C168** for the program as it is: a line that does not ask for help and calls none of five commands is accepted exactly if it can be
written by the grammar, and then means what it means by the grammar. -/
theorem C168_line_exact_partial {glob : Text → List Text} {ws files : List Text} {es : List (Text × Text)} {calls : List Call}
    (h1 : ∀ e ∈ es, e.1 ≠ "help".toList)
    (h2 : ∀ call ∈ calls, call.name ∉ special ∧ ∀ e ∈ call.given, e.1 ≠ "help".toList) :
    parseLine cmd_cli commands glob ws = .ok (es, calls, files) ↔
      ∃ ws', Line cmd_cli ws es ws' ∧ Chained commands glob ws' calls files := by
  have hload : ∀ c ∈ commands, c.name = "load".toList → c.args = [] := by decide +kernel
  obtain ⟨hcl, hno⟩ := C168_exact_table.2.1
  constructor
  · intro h
    unfold parseLine at h
    cases hp : parseOpts cmd_cli ws with
    | error e => rw [hp] at h; cases h
    | ok r =>
      rw [hp] at h
      cases hq : parseChain commands glob [] r.2 with
      | error e => simp only [bind, Except.bind, hq] at h; cases h
      | ok q =>
        simp only [bind, Except.bind, hq] at h
        cases h
        obtain ⟨files, h3, h4⟩ := chain_converse C168_table.2.1 hload _ (Nat.le_refl _) hq fun call hcall =>
          ⟨(h2 call hcall).2, fun c hc he => C168_exact_table.1 c hc (by rw [he]; exact (h2 call hcall).1)⟩
        refine ⟨r.2, (C168_exact hcl hno h1).1 hp, ?_⟩
        rw [h3, List.nil_append]
        exact h4
  · rintro ⟨ws', h3, h4⟩
    exact C168_pgkyl_partial h4 h3

/-! ## The hypotheses are met -/

namespace OptionsEx

/-- The line of `Props/Options.lean`. -/
example : ∃ ws', Line cmd_cli line [("component".toList, "0".toList)] ws' ∧
    Chained commands (fun w => [w]) ws' calls ["two.gkyl".toList] :=
  (C168_line_exact_partial (by decide) (by decide)).1 (C168_pgkyl_partial chained
    (Line.cons (Written.value (o := component) (n := "-c".toList) (w := "0".toList) (by decide +kernel) (Or.inl rfl) (by decide))
      (Line.stop (by decide))))

end OptionsEx

/-! ## The hypotheses are met: options -/

namespace OptionsEx

/-- `plot -sau elc` and `plot -sauelc` -/
example : parseOpts cmd_plot ["-sau".toList, "elc".toList] =
      .ok ([("scatter".toList, "True".toList), ("fixaspect".toList, "True".toList), ("use".toList, "elc".toList)], []) ∧
    parseOpts cmd_plot ["-sauelc".toList] =
      .ok ([("scatter".toList, "True".toList), ("fixaspect".toList, "True".toList), ("use".toList, "elc".toList)], []) := by
  have hc := C168_exact_table.1 cmd_plot (by decide +kernel) (by decide)
  constructor
  · exact (C168_exact hc.1 hc.2 (by decide)).2 (Line.cons (Written.flagsValue (fs := [('s', scatter, "True".toList),
      ('a', aspect, "True".toList)]) (o := ⟨"use".toList, .value, ["--use".toList, "-u".toList], []⟩) (ch := 'u') (w := "elc".toList)
      (by simp) (by decide +kernel) (by decide +kernel) (Or.inl rfl) (by decide) (by unfold NotLong; decide +kernel)) Line.nil)
  · exact (C168_exact hc.1 hc.2 (by decide)).2 (Line.cons (Written.flagsAttached (fs := [('s', scatter, "True".toList),
      ('a', aspect, "True".toList)]) (o := ⟨"use".toList, .value, ["--use".toList, "-u".toList], []⟩) (ch := 'u') (w := "elc".toList)
      (by simp) (by decide +kernel) (by decide +kernel) (Or.inl rfl) (by decide) (by decide) (by unfold NotLong; decide +kernel)) Line.nil)

/-- A value for a flag: no line of the grammar. -/
example (es : List (Text × Text)) (rest : List Text) : ¬ Line cmd_plot ["--scatter=1".toList] es rest := by
  have hc := C168_exact_table.1 cmd_plot (by decide +kernel) (by decide)
  intro h
  have h1 := line_parse hc.1 h
  have h2 : parseOpts cmd_plot ["--scatter=1".toList] = .error .takesNoValue := by
    rw [parseOpts_step (by decide) (by decide)]
    have : processOpt cmd_plot "--scatter=1".toList [] = .error .takesNoValue := by decide +kernel
    rw [this]
  rw [h2] at h1
  cases h1

end OptionsEx

end Pgkyl
