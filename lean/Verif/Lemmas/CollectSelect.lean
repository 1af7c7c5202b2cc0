import Verif.Lemmas.CollectCmd
import Verif.Props.SelectCommands
/-! # Lemmas for collected datasets that are selected from -/

namespace Pgkyl
open Spec Cmd

namespace Collect
section
variable {F : Type}

theorem inv_foldl_addNew {α : Type} {fin : α → Except Err (GData F)} : ∀ (gs : List α) {s s' : Space F}, s.Inv →
    gs.foldlM (init := s) (fun s g => do return s.addNew (← fin g)) = .ok s' → s'.Inv
  | [], s, s', hi, h => by
    simp only [List.foldlM_nil, pure, Except.pure, Except.ok.injEq] at h
    exact h ▸ hi
  | g :: gs, s, s', hi, h => by
    rw [List.foldlM_cons] at h
    cases hp : fin g with
    | error e => simp [hp, bind, Except.bind] at h
    | ok d =>
      rw [hp] at h
      exact inv_foldl_addNew gs (hi.addNew d) h

theorem collect_inv [Zero F] [DecidableEq F] [IntCast F] [Add F] [Sub F] [LinearOrder F]
    {timeOf : GData F → Option F} {frameOf : GData F → Option Int} {argsort : List F → List Nat} {fmod : F → F → F}
    {o : Opts F} {s s' : Space F} (hi : s.Inv) {tag : Tag} (h0 : tag ≠ []) (hcm : ',' ∉ tag) (hu : o.use = some tag)
    {ids : List Nat} (hl : s.lookup tag = some ids) (h : collectCmd timeOf frameOf argsort fmod o s = .ok s') : s'.Inv := by
  rw [collectCmd_one h0 hcm hu] at h
  obtain ⟨s1, hd, hdict, hlen, -⟩ := deactivateAll_ok hi h0 hcm hl
  unfold collectTag at h
  simp only [bind, Except.bind, hd] at h
  cases h1 : s.toList (some tag) true true .none with
  | error e => simp [h1] at h
  | ok items =>
    simp only [h1] at h
    cases h2 : items.foldlM (init := ({} : St F)) (stepAt timeOf frameOf o s) with
    | error e => simp [h2] at h
    | ok st =>
      simp only [h2] at h
      cases h3 : outTagOf o tag 0 with
      | error e => simp [h3] at h
      | ok T =>
        simp only [h3] at h
        exact inv_foldl_addNew _ (hi.congr hdict hlen) h

/-- The active datasets of a tag after a command that replaced them. -/
theorem activeOf_replaced {s s' : Space F} {R : GData F → GData F → Prop} {vis : List Nat} (h : ReplacesResults s vis R s') :
    ∀ (ids : List Nat) (k : Nat), (∀ id ∈ ids, s.active id = true → id ∈ vis) → (∀ id ∈ vis, s.active id = true) →
      List.Forall₂ (fun e e' : Nat × GData F => e.1 = e'.1 ∧ R e.2 e'.2)
        ((ids.zipIdx k).filterMap fun e => (s.heap[e.1]?).bind fun d => if d.status then some (e.2, d) else none)
        ((ids.zipIdx k).filterMap fun e => (s'.heap[e.1]?).bind fun d => if d.status then some (e.2, d) else none)
  | [], _, _, _ => by simp
  | id :: ids, k, hm, hv => by
    have ih := activeOf_replaced h ids (k + 1) (fun i hi => hm i (by simp [hi])) hv
    rw [List.zipIdx_cons]
    cases ha : s.active id with
    | true =>
      obtain ⟨d, r, h1, h2, -, h3, h4⟩ := h.results id (hm id (by simp) ha)
      have hst : d.status = true := by simpa [Space.active, h1] using ha
      rw [List.filterMap_cons_some (b := (k, d)) (by simp [h1, hst]),
        List.filterMap_cons_some (b := (k, r)) (by simp [h2, h3, hst])]
      exact .cons ⟨rfl, h4⟩ ih
    | false =>
      have hnv : id ∉ vis := fun hc => by rw [hv id hc] at ha; cases ha
      have ho := h.others id hnv
      have hn : ((s.heap[id]?).bind fun d => if d.status then some (k, d) else none) = none := by
        cases hd : s.heap[id]? with
        | none => rfl
        | some d =>
          have : d.status = false := by simpa [Space.active, hd] using ha
          simp [this]
      rw [List.filterMap_cons_none (by exact hn), List.filterMap_cons_none (by simp only [ho]; exact hn)]
      exact ih

theorem forall₂_choose {α β γ δ : Type} {P : α → γ → Prop} {Q : α → β → Prop} {X : β → δ → Prop} {Y : γ → δ → Prop}
    (h : ∀ a b c, P a c → Q a b → ∃ d, X b d ∧ Y c d) : ∀ {A : List α} {B : List β} {C : List γ}, List.Forall₂ P A C →
    List.Forall₂ Q A B → ∃ D, List.Forall₂ X B D ∧ List.Forall₂ Y C D
  | [], [], [], .nil, .nil => ⟨[], .nil, .nil⟩
  | _ :: _, _ :: _, _ :: _, .cons p ps, .cons q qs => by
    obtain ⟨d, h1, h2⟩ := h _ _ _ p q
    obtain ⟨D, h3, h4⟩ := forall₂_choose h ps qs
    exact ⟨d :: D, .cons h1 h3, .cons h2 h4⟩

theorem forall₂_mem {α β : Type} {P : α → β → Prop} : ∀ {A : List α} {B : List β}, List.Forall₂ P A B → ∀ b ∈ B, ∃ a ∈ A, P a b
  | [], [], .nil => by simp
  | a :: A, b :: B, .cons p ps => by
    intro x hx
    rcases List.mem_cons.1 hx with rfl | hx
    · exact ⟨a, by simp, p⟩
    · obtain ⟨y, h1, h2⟩ := forall₂_mem ps x hx
      exact ⟨y, by simp [h1], h2⟩

/-- Ascending lists with the same elements are equal. -/
theorem sorted_unique [LinearOrder F] {l l' : List F} (hp : l.Perm l') (h : l.Pairwise (· ≤ ·)) (h' : l'.Pairwise (· ≤ ·)) :
    l = l' :=
  hp.eq_of_pairwise (fun _ _ _ _ h1 h2 => le_antisymm h1 h2) h h'

theorem sorted_lt [LinearOrder F] {l : List F} (hn : l.Nodup) (h : l.Pairwise (· ≤ ·)) : l.Pairwise (· < ·) :=
  (hn.and h).imp fun ⟨h1, h2⟩ => lt_of_le_of_ne h2 h1

end

end Collect
end Pgkyl
