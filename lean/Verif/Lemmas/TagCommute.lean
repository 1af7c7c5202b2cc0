import Verif.Spec.TagCommute
import Verif.Lemmas.Commands
import Verif.Lemmas.FftCommand
/-!
# Commands on different tags
-/

namespace Pgkyl.Space
open Spec
variable {F : Type}

/-- One dataset replaced. -/
def putBody (f : GData F → Except Err (GData F)) (s : Space F) (id : Nat) : Except Err (Space F) :=
  match s.heap[id]? with
  | none => .ok s
  | some d => match f d with
    | .error e => .error e
    | .ok r => .ok (s.update id fun _ => r)

/-- A command that replaces datasets. -/
def putCmd (f : GData F → Except Err (GData F)) (use : Option Tag) (s : Space F) : Except Err (Space F) :=
  iterate id use false true .none (fun s _ id => putBody f s id) s

/-- The same dictionary, the same statuses and as many datasets. -/
def Alike (s s' : Space F) : Prop := s'.dict = s.dict ∧ s'.heap.length = s.heap.length ∧ ∀ j, s'.active j = s.active j

theorem Alike.trans {a b c : Space F} (h : Alike a b) (h' : Alike b c) : Alike a c :=
  ⟨h'.1.trans h.1, h'.2.1.trans h.2.1, fun j => (h'.2.2 j).trans (h.2.2 j)⟩

theorem Alike.tagsOf {s s' : Space F} (h : Alike s s') (use : Option Tag) : s'.tagsOf use = s.tagsOf use := by
  unfold Space.tagsOf; rw [h.1]

theorem Alike.visited {s s' : Space F} (h : Alike s s') (ts : List Tag) : visited s' ts = visited s ts := by
  have h1 : s'.active = s.active := funext h.2.2
  unfold Spec.visited Space.lookup
  rw [h1, h.1]

theorem putBody_alike {f : GData F → Except Err (GData F)} (hf : ∀ d r, f d = .ok r → r.status = d.status) {s s' : Space F}
    {i : Nat} (h : putBody f s i = .ok s') : Alike s s' := by
  unfold putBody at h
  split at h
  · cases h; exact ⟨rfl, rfl, fun _ => rfl⟩
  · rename_i d hd
    split at h
    · cases h
    · rename_i r hr
      cases h
      exact ⟨rfl, by simp [update], fun j => update_active' s hd (hf d r hr) j⟩

/-- The command, without the errors. -/
def putAll (f : GData F → Except Err (GData F)) (ids : List Nat) (s : Space F) : Option (Space F) :=
  ids.foldlM (fun s i => (putBody f s i).toOption) s

theorem foldlM_toOption {α β : Type} (g : α → β → Except Err α) : ∀ (l : List β) (a : α),
    (l.foldlM g a).toOption = l.foldlM (fun a b => (g a b).toOption) a
  | [], _ => rfl
  | b :: l, a => by
    simp only [List.foldlM_cons, bind, Except.bind, Option.bind]
    cases g a b with
    | error e => rfl
    | ok a' => exact foldlM_toOption g l a'

theorem putAll_alike {f : GData F → Except Err (GData F)} (hf : ∀ d r, f d = .ok r → r.status = d.status) :
    ∀ {l : List Nat} {s s' : Space F}, putAll f l s = some s' → Alike s s'
  | [], s, s', h => by cases h; exact ⟨rfl, rfl, fun _ => rfl⟩
  | i :: l, s, s', h => by
    unfold putAll at h
    rw [List.foldlM_cons] at h
    cases hb : putBody f s i with
    | error e => rw [hb] at h; cases h
    | ok s1 =>
      rw [hb] at h
      exact (putBody_alike hf hb).trans (putAll_alike hf h)

theorem putCmd_ok {f : GData F → Except Err (GData F)} (hf : ∀ d r, f d = .ok r → r.status = d.status) {s : Space F}
    (hi : s.Inv) {use : Option Tag} (hkeys : ∀ t ∈ s.tagsOf use, t ∈ s.dict.map Prod.fst) :
    (putCmd f use s).toOption = putAll f (visited s (s.tagsOf use)) s := by
  obtain ⟨l, hl, hv⟩ := toList_visited' hkeys
  unfold putCmd
  rw [iterate_ok (σ := Space F) id use false true .none (fun s _ i => putBody f s i) s hi
    (fun s' => Alike s s') ⟨rfl, rfl, fun _ => rfl⟩
    (fun st i id st' h hb => h.trans (putBody_alike hf hb))
    (by rintro - st' h i _; exact h.2.2 i)
    (by rintro st' h t _; simp only [id, lookup, h.1])
    hl, foldlM_toOption, ← hv]
  unfold putAll
  rw [List.foldlM_map]

theorem foldlM_dict {f : GData F → Except Err (GData F)} (hf : ∀ d r, f d = .ok r → r.status = d.status) :
    ∀ (q : List (Nat × Nat)) (s s1 : Space F), (q.foldlM (init := s) fun st (id, i) =>
      if !true || (_root_.id st).active id then (fun s _ i => putBody f s i) st i id else .ok st) = .ok s1 → s1.dict = s.dict
  | [], s, s1, h => by cases h; rfl
  | e :: q, s, s1, hv => by
    rw [List.foldlM_cons] at hv
    cases hb : (if (!true || (id s).active e.1) = true then putBody f s e.1 else .ok s) with
    | error e' => simp only [hb, bind, Except.bind] at hv; cases hv
    | ok s2 =>
      simp only [hb, bind, Except.bind] at hv
      have h2 : s2.dict = s.dict := by
        split at hb
        · exact (putBody_alike hf hb).1
        · cases hb; rfl
      exact (foldlM_dict hf q s2 s1 hv).trans h2

theorem foldlM_visit_missing {f : GData F → Except Err (GData F)} (hf : ∀ d r, f d = .ok r → r.status = d.status)
    {t : Tag} : ∀ (ts : List Tag) (s : Space F), t ∈ ts → t ∉ s.dict.map Prod.fst →
    ∃ e, ts.foldlM (visitTag id true .none (.slice none none none) (fun s _ i => putBody f s i)) s = .error e
  | [], _, h, _ => by cases h
  | u :: ts, s, h, hn => by
    rw [List.foldlM_cons]
    cases hv : visitTag id true .none (.slice none none none) (fun s _ i => putBody f s i) s u with
    | error e => exact ⟨e, rfl⟩
    | ok s1 =>
      have hne : t ≠ u := by
        rintro rfl
        unfold visitTag at hv
        rw [show (id s).lookup t = none from (lookup_eq_none_iff s t).2 hn] at hv
        cases hv
      have hd : s1.dict = s.dict := by
        unfold visitTag at hv
        split at hv
        · cases hv
        · split at hv
          · cases hv
          · exact foldlM_dict hf _ s s1 hv
      exact foldlM_visit_missing hf ts s1 ((List.mem_cons.1 h).resolve_left hne) (by rw [hd]; exact hn)

theorem putCmd_missing {f : GData F → Except Err (GData F)} (hf : ∀ d r, f d = .ok r → r.status = d.status) {s : Space F}
    {use : Option Tag} {t : Tag} (ht : t ∈ s.tagsOf use) (hn : t ∉ s.dict.map Prod.fst) :
    (putCmd f use s).toOption = none := by
  obtain ⟨e, he⟩ := foldlM_visit_missing hf (s.tagsOf use) s ht hn
  have : putCmd f use s = .error e := he
  rw [this]; rfl

theorem putCmd_alike {f : GData F → Except Err (GData F)} (hf : ∀ d r, f d = .ok r → r.status = d.status) {s s' : Space F}
    (hi : s.Inv) {use : Option Tag} (h : (putCmd f use s).toOption = some s') : Alike s s' := by
  by_cases hk : ∀ t ∈ s.tagsOf use, t ∈ s.dict.map Prod.fst
  · rw [putCmd_ok hf hi hk] at h
    exact putAll_alike hf h
  · push Not at hk
    obtain ⟨t, ht, hn⟩ := hk
    rw [putCmd_missing hf ht hn] at h
    cases h

/-! ## Steps on different datasets commute -/

set_option linter.unusedSimpArgs false in
theorem put_comm (f g : GData F → Except Err (GData F)) {i j : Nat} (h : i ≠ j) (s : Space F) :
    (putBody f s i).toOption.bind (fun s => (putBody g s j).toOption) =
      (putBody g s j).toOption.bind (fun s => (putBody f s i).toOption) := by
  have hu : ∀ (a b : Nat) (r : GData F), a ≠ b → (s.update a fun _ => r).heap[b]? = s.heap[b]? := by
    intro a b r hab
    rw [update_heap?, if_neg hab]
  unfold putBody
  cases hi : s.heap[i]? with
  | none =>
    cases hj : s.heap[j]? with
    | none => simp [Except.toOption, hi, hj]
    | some e =>
      cases hg : g e with
      | error _ => simp [Except.toOption, hi, hj, hg]
      | ok r => simp [Except.toOption, hi, hj, hg, hu j i r h.symm]
  | some d =>
    cases hj : s.heap[j]? with
    | none =>
      cases hf : f d with
      | error _ => simp [Except.toOption, hi, hj, hf]
      | ok r => simp [Except.toOption, hi, hj, hf, hu i j r h]
    | some e =>
      cases hf : f d with
      | error _ =>
        cases hg : g e with
        | error _ => simp [Except.toOption, hi, hj, hf, hg]
        | ok r => simp [Except.toOption, hi, hj, hf, hg, hu j i r h.symm]
      | ok q =>
        cases hg : g e with
        | error _ => simp [Except.toOption, hi, hj, hf, hg, hu i j q h]
        | ok r =>
          simp only [Except.toOption, hi, hj, hf, hg, hu i j q h, hu j i r h.symm, Option.bind_some]
          congr 1
          unfold update
          congr 1
          apply List.ext_getElem?
          intro k
          simp only [List.getElem?_modify]
          by_cases h1 : i = k
          · subst h1; simp [h, h.symm]
          · by_cases h2 : j = k
            · subst h2; simp [h]
            · simp [h1, h2]

theorem put_putAll (f g : GData F → Except Err (GData F)) {i : Nat} : ∀ {l : List Nat}, i ∉ l → ∀ s : Space F,
    (putBody f s i).toOption.bind (putAll g l) = (putAll g l s).bind (fun s => (putBody f s i).toOption)
  | [], _, s => by
    show (putBody f s i).toOption.bind some = (some s).bind _
    simp
  | j :: l, h, s => by
    have hne : i ≠ j := fun e => h (by simp [e])
    have ih := put_putAll f g (l := l) (fun e => h (List.mem_cons_of_mem _ e))
    have hc : putAll g (j :: l) = fun s => (putBody g s j).toOption.bind (putAll g l) := by
      funext s; unfold putAll; rw [List.foldlM_cons]; rfl
    rw [hc, ← Option.bind_assoc, put_comm f g hne s, Option.bind_assoc, Option.bind_assoc]
    congr 1
    funext s
    exact ih s

theorem putAll_comm (f g : GData F → Except Err (GData F)) : ∀ {l m : List Nat}, (∀ i ∈ l, i ∉ m) → ∀ s : Space F,
    (putAll f l s).bind (putAll g m) = (putAll g m s).bind (putAll f l)
  | [], m, _, s => by
    show (some s).bind _ = (putAll g m s).bind some
    simp
  | i :: l, m, h, s => by
    have ih := putAll_comm f g (l := l) (m := m) (fun i hi => h i (List.mem_cons_of_mem _ hi))
    have hc : putAll f (i :: l) = fun s => (putBody f s i).toOption.bind (putAll f l) := by
      funext s; unfold putAll; rw [List.foldlM_cons]; rfl
    rw [hc]
    have h1 := put_putAll f g (h i (by simp)) s
    simp only [Option.bind_assoc]
    rw [show (fun s => (putAll f l s).bind (putAll g m)) = fun s => (putAll g m s).bind (putAll f l) from funext ih,
      ← Option.bind_assoc, h1, Option.bind_assoc]

theorem visited_disjoint {s : Space F} (hi : s.Inv) {ts us : List Tag} (h : ∀ t ∈ ts, t ∉ us) :
    ∀ i ∈ visited s ts, i ∉ visited s us := by
  intro i h1 h2
  obtain ⟨t, ht, h1⟩ := List.mem_flatMap.1 h1
  obtain ⟨u, hu, h2⟩ := List.mem_flatMap.1 h2
  have h1 := (List.mem_filter.1 h1).1
  have h2 := (List.mem_filter.1 h2).1
  cases hl : s.lookup t with
  | none => rw [hl] at h1; simp at h1
  | some l =>
    cases hl' : s.lookup u with
    | none => rw [hl'] at h2; simp at h2
    | some l' =>
      rw [hl] at h1; rw [hl'] at h2
      exact hi.disjoint hl hl' (fun e => h t ht (e ▸ hu)) h1 h2

theorem putCmd_comm {f g : GData F → Except Err (GData F)} (hf : ∀ d r, f d = .ok r → r.status = d.status)
    (hg : ∀ d r, g d = .ok r → r.status = d.status) {s : Space F} (hi : s.Inv) {u v : Option Tag}
    (h : ∀ t ∈ s.tagsOf u, t ∉ s.tagsOf v) :
    (putCmd f u s).toOption.bind (fun s => (putCmd g v s).toOption) =
      (putCmd g v s).toOption.bind (fun s => (putCmd f u s).toOption) := by
  have inv : ∀ {s'}, Alike s s' → s'.Inv := fun a => hi.congr a.1 a.2.1
  by_cases hu : ∀ t ∈ s.tagsOf u, t ∈ s.dict.map Prod.fst
  · by_cases hv : ∀ t ∈ s.tagsOf v, t ∈ s.dict.map Prod.fst
    · have e1 : (putCmd f u s).toOption.bind (fun s => (putCmd g v s).toOption) =
          (putAll f (visited s (s.tagsOf u)) s).bind (putAll g (visited s (s.tagsOf v))) := by
        rw [putCmd_ok hf hi hu]
        cases hp : putAll f (visited s (s.tagsOf u)) s with
        | none => rfl
        | some s1 =>
          have a := putAll_alike hf hp
          show (putCmd g v s1).toOption = _
          rw [putCmd_ok hg (inv a) (by rw [a.tagsOf, a.1]; exact hv), a.tagsOf, a.visited]
          rfl
      have e2 : (putCmd g v s).toOption.bind (fun s => (putCmd f u s).toOption) =
          (putAll g (visited s (s.tagsOf v)) s).bind (putAll f (visited s (s.tagsOf u))) := by
        rw [putCmd_ok hg hi hv]
        cases hp : putAll g (visited s (s.tagsOf v)) s with
        | none => rfl
        | some s1 =>
          have a := putAll_alike hg hp
          show (putCmd f u s1).toOption = _
          rw [putCmd_ok hf (inv a) (by rw [a.tagsOf, a.1]; exact hu), a.tagsOf, a.visited]
          rfl
      rw [e1, e2]
      exact putAll_comm f g (visited_disjoint hi h) s
    · push Not at hv
      obtain ⟨t, ht, hn⟩ := hv
      rw [putCmd_missing hg ht hn]
      show _ = none
      cases hp : (putCmd f u s).toOption with
      | none => rfl
      | some s1 =>
        have a := putCmd_alike hf hi hp
        exact putCmd_missing hg (by rw [a.tagsOf]; exact ht) (by rw [a.1]; exact hn)
  · push Not at hu
    obtain ⟨t, ht, hn⟩ := hu
    rw [putCmd_missing hf ht hn]
    show none = _
    cases hp : (putCmd g v s).toOption with
    | none => rfl
    | some s1 =>
      have a := putCmd_alike hg hi hp
      exact (putCmd_missing hf (by rw [a.tagsOf]; exact ht) (by rw [a.1]; exact hn)).symm

end Pgkyl.Space

namespace Pgkyl.Cmd
open Spec

section
variable {F : Type} [Min F] [Max F]

theorem pushCmd_put (f : GData F → Except Err (List (NArr F) × NArr F)) (use : Option Tag) (label : List Char) (s : Space F) :
    pushCmd f use none label s = Space.putCmd (fun d => do let p ← f d; d.push p.1 p.2) use s := by
  unfold pushCmd Space.putCmd Space.putBody
  congr 1
  funext s _ i
  cases s.heap[i]? with
  | none => rfl
  | some d =>
    simp only [bind, Except.bind]
    cases f d with
    | error e => rfl
    | ok p =>
      simp only
      cases d.push p.1 p.2 <;> rfl

theorem push_status (f : GData F → Except Err (List (NArr F) × NArr F)) (d r : GData F)
    (h : (do let p ← f d; d.push p.1 p.2) = .ok r) : r.status = d.status := by
  simp only [bind, Except.bind] at h
  cases hf : f d with
  | error e => rw [hf] at h; cases h
  | ok p => rw [hf] at h; exact (push_tag h).2.1

theorem fluidCmd_put (var : Option (NArr F → Except Err (NArr F))) (use : Option Tag) (label : List Char) :
    ∃ f : GData F → Except Err (GData F), (∀ d r, f d = .ok r → r.status = d.status) ∧
      ∀ s, fluidCmd var use none label s = Space.putCmd f use s := by
  cases var with
  | none =>
    refine ⟨fun d => .ok d, fun d r h => by cases h; rfl, fun s => ?_⟩
    unfold fluidCmd Space.putCmd Space.putBody
    congr 1
    funext s _ i
    cases hd : s.heap[i]? with
    | none => rfl
    | some d =>
      simp only
      have hm : s.heap.modify i (fun _ => d) = s.heap := by
        apply List.ext_getElem?
        intro k
        rw [List.getElem?_modify]
        by_cases h : i = k
        · subst h; simp [hd]
        · simp [h]
      unfold Space.update
      rw [hm]
  | some f =>
    refine ⟨fun d => do let p ← ofValues f d; d.push p.1 p.2, push_status _, fun s => ?_⟩
    unfold fluidCmd Space.putCmd Space.putBody
    congr 1
    funext s _ i
    cases s.heap[i]? with
    | none => rfl
    | some d =>
      simp only [bind, Except.bind]
      cases ofValues f d with
      | error e => rfl
      | ok p =>
        simp only
        cases d.push p.1 p.2 <;> rfl

end

theorem inPlace_put {F : Type} [_root_.Field F] [LinearOrder F] {c : Space F → Except Err (Space F)} {use : Option Tag}
    (h : InPlace c use) : ∃ f : GData F → Except Err (GData F), (∀ d r, f d = .ok r → r.status = d.status) ∧
      ∀ s, c s = Space.putCmd f use s := by
  cases h with
  | select => exact ⟨_, push_status _, fun s => pushCmd_put _ _ _ s⟩
  | integrate => exact ⟨_, push_status _, fun s => pushCmd_put _ _ _ s⟩
  | interpolate => exact ⟨_, push_status _, fun s => pushCmd_put _ _ _ s⟩
  | differentiate => exact ⟨_, push_status _, fun s => pushCmd_put _ _ _ s⟩
  | magsq => exact ⟨_, push_status _, fun s => pushCmd_put _ _ _ s⟩
  | grid => exact ⟨_, push_status _, fun s => pushCmd_put _ _ _ s⟩
  | euler => exact fluidCmd_put _ _ _
  | mhd => exact fluidCmd_put _ _ _
  | tenmoment => exact fluidCmd_put _ _ _

end Pgkyl.Cmd
