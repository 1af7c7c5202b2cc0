import Verif.Props.LineLoads
import Verif.Props.OptionsExact
/-! # C170: the files of every line that is accepted -/

namespace Pgkyl
open Spec Options

namespace Options

theorem line_suffix {c : Command} {ws rest : List Text} {es : List (Text × Text)} (h : Line c ws es rest) : rest <:+ ws := by
  induction h with
  | nil => exact List.suffix_refl _
  | stop _ => exact List.suffix_refl _
  | dashes => exact List.suffix_cons _ _
  | cons _ _ ih => exact ih.trans (List.suffix_append _ _)
  | left _ _ _ _ _ ih => exact ih.trans (List.suffix_cons _ _)

theorem chained_filesOn {glob : Text → List Text} {ws files : List Text} {calls : List Call} (h : Chained commands glob ws calls files)
    (hw : ∀ w ∈ ws, ¬ w <+: "load".toList) : ∃ fs, FilesOn glob ws fs ∧ fs.map (·.1) = files := by
  induction h with
  | nil => exact ⟨[], .nil, rfl⟩
  | @call c w ws as rest files es calls hc hcl hcalled hlen hl _ ih =>
    have hsub : ∀ x ∈ rest, x ∈ w :: ws := fun x hx =>
      List.mem_cons_of_mem _ ((line_suffix hl).subset (List.mem_append_right _ hx))
    obtain ⟨fs, h1, h2⟩ := ih fun x hx => hw x (hsub x hx)
    refine ⟨fs, .call hc hcl ?_ hcalled hlen hl h1, h2⟩
    rintro rfl
    have hname : cmd_load.name = "load".toList := rfl
    rcases hcalled with rfl | ⟨_, hp, _⟩
    · exact hw _ List.mem_cons_self (List.prefix_refl _)
    · exact hw _ List.mem_cons_self (hname ▸ hp)
  | @file c f ws rest files es calls hc hcl hname hargs hno hglob hl _ ih =>
    have hsub : ∀ x ∈ rest, x ∈ f :: ws := fun x hx => List.mem_cons_of_mem _ ((line_suffix hl).subset hx)
    obtain ⟨fs, h1, h2⟩ := ih fun x hx => hw x (hsub x hx)
    have := load_clear.2.2.2.2 c hc hname
    subst this
    exact ⟨(f, es) :: fs, .file hno hglob hl h1, by rw [List.map_cons, h2]⟩

end Options

/-- **C170**: whatever line is accepted, if no word of it stands for `load` itself, the files that Click finds on it are those that can be
read off the line, and each is loaded once, in the order of the line, with its own options. -/
theorem C170_accepted_partial {glob : Text → List Text} {ws files : List Text} {es : List (Text × Text)} {calls : List Call}
    (h : parseLine cmd_cli commands glob ws = .ok (es, calls, files)) (h1 : ∀ e ∈ es, e.1 ≠ "help".toList)
    (h2 : ∀ call ∈ calls, call.name ∉ special ∧ ∀ e ∈ call.given, e.1 ≠ "help".toList)
    (h3 : ∀ w ∈ ws, ¬ w <+: "load".toList) :
    ∃ ws' fs ls, Line cmd_cli ws es ws' ∧ FilesOn glob ws' fs ∧ fs.map (·.1) = files ∧ lineLoads glob ws = .ok ls ∧
      List.Forall₂ (LoadedAs es) fs ls := by
  obtain ⟨ws', hl, hc⟩ := (C168_line_exact_partial h1 h2).1 h
  obtain ⟨fs, hf, hm⟩ := chained_filesOn hc fun w hw => h3 w ((line_suffix hl).subset hw)
  obtain ⟨ls, g1, g2⟩ := C170_files_partial hf hl
  exact ⟨ws', fs, ls, hl, hf, hm, g1, g2⟩

/-! ## The hypotheses are met: the line of `Props/Options.lean` -/

example : ∃ ls, lineLoads (fun w => [w]) OptionsEx.line = .ok ls ∧ ls.length = 1 := by
  have h := C168_pgkyl_partial OptionsEx.chained (ws' := OptionsEx.line) (es := [("component".toList, "0".toList)])
    (Line.cons (Written.value (o := OptionsEx.component) (n := "-c".toList) (w := "0".toList) (by decide +kernel) (Or.inl rfl) (by decide))
      (Line.stop (by decide)))
  obtain ⟨_, fs, ls, _, _, hm, g1, g2⟩ := C170_accepted_partial h (by decide) (by decide) (by decide)
  refine ⟨ls, g1, ?_⟩
  rw [← g2.length_eq, ← List.length_map (f := (·.1)), hm]
  rfl

end Pgkyl
