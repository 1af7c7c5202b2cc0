import Verif.Spec.Text
import Verif.Lemmas.Py
import Mathlib.Data.List.Induction
import Mathlib.Data.List.Sort
/-! # Lemmas: texts -/

namespace Pgkyl.Text
open Spec

theorem dropWhile_blanks {a s : List Char} (ha : ∀ c ∈ a, isBlank c = true) :
    (a ++ s).dropWhile isBlank = s.dropWhile isBlank := by
  induction a with
  | nil => rfl
  | cons c a ih =>
    rw [List.cons_append, List.dropWhile_cons_of_pos (ha c (by simp))]
    exact ih fun c h => ha c (by simp [h])

theorem dropWhile_id {s : List Char} (h : ∀ c, s.head? = some c → isBlank c = false) : s.dropWhile isBlank = s := by
  cases s with
  | nil => rfl
  | cons c s => rw [List.dropWhile_cons_of_neg (by simpa using h c rfl)]

/-- Surrounding blanks are removed, and nothing else. -/
theorem strip_word {a s b : List Char} (ha : ∀ c ∈ a, isBlank c = true) (hb : ∀ c ∈ b, isBlank c = true)
    (h1 : ∀ c, s.head? = some c → isBlank c = false) (h2 : ∀ c, s.getLast? = some c → isBlank c = false) :
    strip (a ++ s ++ b) = s := by
  have hb' : ∀ c ∈ b.reverse, isBlank c = true := fun c h => hb c (by simpa using h)
  rw [strip, List.append_assoc, dropWhile_blanks ha]
  cases s with
  | nil =>
    rw [List.nil_append]
    have : b.dropWhile isBlank = [] := by
      have := dropWhile_blanks (s := []) hb
      simpa using this
    rw [this]; rfl
  | cons c s =>
    rw [dropWhile_id (s := (c :: s) ++ b) (by simpa using h1), List.reverse_append, dropWhile_blanks hb',
      dropWhile_id, List.reverse_reverse]
    intro x hx
    rw [List.head?_reverse] at hx
    exact h2 x hx

theorem blanks_blank {a : List Char} (h : Blanks a) : ∀ c ∈ a, isBlank c = true := by
  intro c hc
  rcases h c hc with rfl | rfl <;> decide

theorem blanks_colon {a : List Char} (h : Blanks a) : ':' ∉ a := fun hc => by
  rcases h _ hc with h | h <;> simp at h

theorem blanks_nl {a : List Char} (h : Blanks a) : '\n' ∉ a := fun hc => by
  rcases h _ hc with h | h <;> simp at h

theorem takeWhile_colon {p q : List Char} (h : ':' ∉ p) : (p ++ ':' :: q).takeWhile (· ≠ ':') = p := by
  induction p with
  | nil => simp
  | cons c p ih =>
    have hc : c ≠ ':' := fun e => h (by simp [e])
    rw [List.cons_append, List.takeWhile_cons_of_pos (by simpa using hc), ih fun hh => h (by simp [hh])]

theorem setting_line {line k v : List Char} (h : StyleLine line k v) : setting line = (k, v) := by
  obtain ⟨hk, hkc, hv, a, b, c, d, ha, hb, hc, hd, rfl⟩ := h
  have hno : ':' ∉ a ++ k ++ b := by
    simp only [List.mem_append, not_or]
    exact ⟨⟨blanks_colon ha, hkc⟩, blanks_colon hb⟩
  simp only [setting]
  rw [takeWhile_colon hno, List.drop_append, List.drop_eq_nil_of_le (by omega)]
  rw [strip_word (blanks_blank ha) (blanks_blank hb) hk.2.1 hk.2.2]
  simp only [Nat.add_sub_cancel_left, List.drop_one, List.tail_cons, List.nil_append]
  rw [strip_word (blanks_blank hc) (blanks_blank hd) hv.2.1 hv.2.2]

theorem line_nl {line k v : List Char} (h : StyleLine line k v) : '\n' ∉ line := by
  obtain ⟨hk, _, hv, a, b, c, d, ha, hb, hc, hd, rfl⟩ := h
  simp only [List.mem_append, List.mem_cons, not_or]
  exact ⟨⟨⟨blanks_nl ha, hk.1⟩, blanks_nl hb⟩, by decide, ⟨blanks_nl hc, hv.1⟩, blanks_nl hd⟩

/-- The lines of a text that ends with a line end. -/
theorem readlines_lines (ls : List (List Char)) (h : ∀ l ∈ ls, '\n' ∉ l) :
    readlines (ls.flatMap fun l => l ++ ['\n']) = ls := by
  have key : splitOn '\n' (ls.flatMap fun l => l ++ ['\n']) = ls ++ [[]] := by
    induction ls with
    | nil => rfl
    | cons l ls ih =>
      rw [List.flatMap_cons, List.append_assoc, List.singleton_append]
      rw [splitOn_append (h l (by simp)), ih fun l hl => h l (by simp [hl])]
      rfl
  simp [readlines, key]

theorem splitOn_lines : ∀ (ls : List (List Char)) (l : List Char), (∀ l' ∈ ls, '\n' ∉ l') → '\n' ∉ l →
    splitOn '\n' ((ls.flatMap fun l => l ++ ['\n']) ++ l) = ls ++ [l]
  | [], l, _, hl => by simpa using splitOn_notMem hl
  | x :: ls, l, h, hl => by
    rw [List.flatMap_cons, List.append_assoc, List.append_assoc, List.singleton_append, splitOn_append (h x (by simp)),
      splitOn_lines ls l (fun l' hl' => h l' (by simp [hl'])) hl]
    rfl

/-- The lines of a text, none of them empty. -/
theorem readlines_textOf {ls : List (List Char)} {text : List Char} (h : ∀ l ∈ ls, '\n' ∉ l) (hne : ∀ l ∈ ls, l ≠ [])
    (ht : TextOf ls text) : readlines text = ls := by
  rcases ht with rfl | ht
  · exact readlines_lines ls h
  · rcases List.eq_nil_or_concat ls with rfl | ⟨ls', l, rfl⟩
    · simp at ht
    · have : text = (ls'.flatMap fun l => l ++ ['\n']) ++ l := by
        simp only [List.concat_eq_append, List.flatMap_append, List.flatMap_singleton] at ht
        rw [← List.append_assoc] at ht
        exact List.append_cancel_right ht
      simp only [List.concat_eq_append] at h hne ⊢
      rw [this, readlines, splitOn_lines ls' l (fun l' hl' => h l' (by simp [hl'])) (h l (by simp))]
      simp [hne l (by simp)]

theorem line_ne {line k v : List Char} (h : StyleLine line k v) : line ≠ [] := by
  obtain ⟨_, _, _, a, b, c, d, _, _, _, _, rfl⟩ := h
  simp

theorem params_get_set {α : Type} (d : Params α) (k k' : List Char) (v : Rc α) :
    (d.set k v).get? k' = if k' = k then some v else d.get? k' := by
  induction d with
  | nil =>
    by_cases h : k' = k
    · simp [Params.set, Params.get?, h]
    · simp [Params.set, Params.get?, h, Ne.symm h]
  | cons e d ih =>
    obtain ⟨a, b⟩ := e
    simp only [Params.set]
    by_cases h : a = k
    · subst h
      by_cases h2 : k' = a
      · simp [Params.get?, h2]
      · simp [Params.get?, h2, Ne.symm h2]
    · rw [if_neg h]
      by_cases h2 : a = k'
      · subst h2; simp [Params.get?, h]
      · simp only [Params.get?] at ih ⊢
        rw [List.find?_cons_of_neg (by simpa using h2), ih, List.find?_cons_of_neg (by simpa using h2)]

/-- A sequence of assignments: the last one counts. -/
theorem foldl_set {α : Type} (l : List (List Char × Rc α)) (rc : Params α) (k : List Char) :
    (l.foldl (fun rc p => rc.set p.1 p.2) rc).get? k = (lastSetting l k).or (rc.get? k) := by
  induction l using List.reverseRecOn with
  | nil => simp [lastSetting]
  | append_singleton l p ih =>
    rw [List.foldl_append, List.foldl_cons, List.foldl_nil, params_get_set, ih]
    simp only [lastSetting]
    rw [List.reverse_append,
      List.reverse_singleton, List.singleton_append]
    by_cases h : k = p.1
    · rw [if_pos h, List.find?_cons_of_pos (by simpa using h.symm)]; rfl
    · rw [if_neg h, List.find?_cons_of_neg (by simpa using Ne.symm h)]

/-! ### Stems -/

theorem isDig_us : isDig '_' = false := by decide

theorem stripNumber_of {s ds : List Char} (hne : ds ≠ []) (hd : ∀ c ∈ ds, isDig c = true) :
    stripNumber (s ++ '_' :: ds) = s := by
  have hr : (s ++ '_' :: ds).reverse = ds.reverse ++ '_' :: s.reverse := by simp
  have hd' : ∀ c ∈ ds.reverse, isDig c = true := fun c h => hd c (by simpa using h)
  have h1 : (ds.reverse ++ '_' :: s.reverse).dropWhile isDig = '_' :: s.reverse := by
    rw [List.dropWhile_append_of_pos hd', List.dropWhile_cons_of_neg (by simp [isDig_us])]
  have h2 : (ds.reverse ++ '_' :: s.reverse).takeWhile isDig = ds.reverse := by
    rw [List.takeWhile_append_of_pos hd', List.takeWhile_cons_of_neg (by simp [isDig_us]), List.append_nil]
  simp only [stripNumber, hr, h1, h2]
  rw [if_neg (by simpa using hne), List.reverse_reverse]

theorem stripNumber_id {u : List Char} (h : ∀ p n, FrameSuffix n → u ≠ p ++ n) : stripNumber u = u := by
  simp only [stripNumber]
  split
  · next p hp =>
    split
    · rfl
    · next hne =>
      exfalso
      apply h p.reverse ('_' :: (u.reverse.takeWhile isDig).reverse)
        ⟨_, rfl, by simpa using hne, fun c hc => by
          have := List.all_eq_true.1 (List.all_takeWhile (p := isDig) (l := u.reverse)) c (List.mem_reverse.1 hc)
          exact this⟩
      have := List.takeWhile_append_dropWhile (p := isDig) (l := u.reverse)
      rw [hp] at this
      have := congrArg List.reverse this
      rw [List.reverse_reverse] at this
      rw [List.reverse_append, List.reverse_cons, List.append_assoc, List.singleton_append] at this
      exact this.symm
  · rfl

theorem stem_iff (ext s fn : List Char) (hext : ∃ t, fn = t ++ '.' :: ext) : stem ext fn = s ↔ StemOf ext s fn := by
  obtain ⟨t, rfl⟩ := hext
  have ht : (t ++ '.' :: ext).take ((t ++ '.' :: ext).length - (ext.length + 1)) = t := by
    simp
  -- what is left after `_restart`
  obtain ⟨u, hu, hdrop⟩ : ∃ u, (if "_restart".toList.isSuffixOf t then t.take (t.length - 8) else t) = u ∧
      DropsSuffix "_restart".toList t u := by
    by_cases hr : "_restart".toList.isSuffixOf t = true
    · rw [if_pos hr]
      rw [List.isSuffixOf_iff_suffix] at hr
      obtain ⟨p, rfl⟩ := hr
      exact ⟨p, by simp, Or.inl rfl⟩
    · rw [if_neg hr]
      refine ⟨t, rfl, Or.inr ⟨rfl, fun p hp => hr ?_⟩⟩
      rw [List.isSuffixOf_iff_suffix]
      exact ⟨p, hp.symm⟩
  have huniq : ∀ u', DropsSuffix "_restart".toList t u' → u' = u := by
    intro u' h'
    rcases hdrop with h | ⟨h, hno⟩
    · rcases h' with h'' | ⟨_, hno'⟩
      · rw [h] at h''; exact (List.append_cancel_right h'').symm
      · exact absurd h (hno' u)
    · rcases h' with h'' | ⟨h'', _⟩
      · exact absurd h'' (hno u')
      · rw [h, h'']
  have hstem : stem ext (t ++ '.' :: ext) = stripNumber u := by
    simp only [stem, ht, hu]
  rw [hstem]
  constructor
  · rintro rfl
    refine ⟨t, u, rfl, hdrop, ?_⟩
    by_cases hn : ∃ p n, FrameSuffix n ∧ u = p ++ n
    · obtain ⟨p, n, hf, rfl⟩ := hn
      obtain ⟨ds, rfl, h1, h2⟩ := hf
      exact Or.inl ⟨_, ⟨ds, rfl, h1, h2⟩, by rw [stripNumber_of h1 h2]⟩
    · push Not at hn
      exact Or.inr ⟨stripNumber_id hn, hn⟩
  · rintro ⟨t', u', e, hd', h⟩
    have : t = t' := List.append_cancel_right e
    subst this
    rw [← huniq u' hd']
    rcases h with ⟨n, ⟨ds, rfl, h1, h2⟩, rfl⟩ | ⟨rfl, h⟩
    · exact stripNumber_of h1 h2
    · exact stripNumber_id h

theorem uniqueStems_spec (ext : List Char) (files : List (List Char)) :
    (uniqueStems ext files).Nodup ∧ ∀ s, s ∈ uniqueStems ext files ↔ ∃ fn ∈ files, stem ext fn = s := by
  unfold uniqueStems
  induction files using List.reverseRecOn with
  | nil => simp
  | append_singleton l fn ih =>
    rw [List.foldl_append, List.foldl_cons, List.foldl_nil]
    obtain ⟨h1, h2⟩ := ih
    split
    · next hm =>
      refine ⟨h1, fun s => ?_⟩
      rw [h2]
      constructor
      · rintro ⟨f, hf, e⟩; exact ⟨f, by simp [hf], e⟩
      · rintro ⟨f, hf, e⟩
        rw [List.mem_append, List.mem_singleton] at hf
        rcases hf with hf | rfl
        · exact ⟨f, hf, e⟩
        · rw [← e]; exact (h2 _).1 hm
    · next hm =>
      refine ⟨List.nodup_append.2 ⟨h1, by simp, fun a ha b hb => ?_⟩, fun s => ?_⟩
      · rw [List.mem_singleton] at hb
        rintro rfl
        exact hm (hb ▸ ha)
      · rw [List.mem_append, List.mem_singleton, h2]
        constructor
        · rintro (⟨f, hf, e⟩ | rfl)
          · exact ⟨f, by simp [hf], e⟩
          · exact ⟨fn, by simp, rfl⟩
        · rintro ⟨f, hf, e⟩
          rw [List.mem_append, List.mem_singleton] at hf
          rcases hf with hf | rfl
          · exact Or.inl ⟨f, hf, e⟩
          · exact Or.inr e.symm

/-- Sorting a list without repetitions. -/
theorem sort_spec (l : List (List Char)) (h : l.Nodup) :
    (l.mergeSort fun a b => decide (a ≤ b)).Pairwise (· < ·) ∧ ∀ s, s ∈ (l.mergeSort fun a b => decide (a ≤ b)) ↔ s ∈ l := by
  have hp := List.mergeSort_perm l (fun a b => decide (a ≤ b))
  refine ⟨?_, fun s => hp.mem_iff⟩
  have hs := List.pairwise_mergeSort (le := fun a b : List Char => decide (a ≤ b))
    (by intro a b c h1 h2; simp only [decide_eq_true_eq] at *; exact List.le_trans h1 h2)
    (by intro a b; simp only [Bool.or_eq_true, decide_eq_true_eq]; exact List.le_total a b) l
  have hn : (l.mergeSort fun a b => decide (a ≤ b)).Nodup := hp.nodup_iff.2 h
  refine (hs.and hn).imp ?_
  rintro a b ⟨h1, h2⟩
  simp only [decide_eq_true_eq] at h1
  by_contra hc
  exact h2 (List.le_antisymm h1 (List.not_lt.1 hc))

end Pgkyl.Text
