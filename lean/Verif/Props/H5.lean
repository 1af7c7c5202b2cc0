import Verif.Lemmas.H5
import Mathlib.Data.Rat.Floor
import Mathlib.Tactic.IntervalCases
/-! # C103-C106: choosing a reader, legacy HDF5 files, FLASH files -/

namespace Pgkyl
open Spec H5

/-! ### C103: the reader -/

/-- The property: the file is opened with the first reader, in the documented order and among those the name allows, that
recognises it. -/
def C103_statement : Prop := ∀ (m : Medium ℚ) (name : String) (k : Kind), Tried name k → Recognises m k →
  (∀ k', Tried name k' → readerRank k' < readerRank k → ¬ Recognises m k') → choose m name = .ok k

/-- Missing for the full property: that an exception of the ADIOS library does not stop the search; here it raises none, or is
not asked. -/
theorem C103_reader_partial {F : Type} (m : Medium F) (name : String) (k : Kind)
    (hadios : (∃ b, m.adios = .ok b) ∨ (name = readerName k ∧ k ≠ .adios) ∨ k = .gkyl)
    (ht : Tried name k) (hk : Recognises m k)
    (hbefore : ∀ k', Tried name k' → readerRank k' < readerRank k → ¬ Recognises m k') :
    choose m name = .ok k := by
  by_cases hname : name = readerName k
  · subst hname
    rw [choose, candidates_named]
    have := first_some m [] [] (readerName k, k) (fun q hq he => by
      simp only [List.nil_append, List.mem_singleton] at hq
      subst hq
      rcases hadios with h | ⟨_, h⟩ | h
      · exact h
      · exact absurd he h
      · dsimp only at he; rw [h] at he; simp at he) (by simp) hk
    rw [List.nil_append] at this
    rw [this]; rfl
  · have hall : ∀ k', name ≠ readerName k' := by
      rcases ht with h | h
      · exact absurd h hname
      · exact h
    rw [choose, candidates_other name hall]
    obtain ⟨l, r, e, hl⟩ := readers_split k
    rw [e, first_some m l r (readerName k, k) ?_ ?_ hk]
    · rfl
    · intro q hq he
      rcases hadios with h | ⟨h, _⟩ | h
      · exact h
      · exact absurd h hname
      · exfalso
        rw [List.mem_append, List.mem_singleton] at hq
        rcases hq with hq | hq
        · have := ((hl q).1 hq).2
          rw [h] at this; simp [readerRank] at this
        · rw [hq] at he; dsimp only at he; rw [h] at he; simp at he
    · intro q hq
      exact hbefore q.2 (Or.inr hall) ((hl q).1 hq).2

/-- A file no allowed reader recognises is refused. -/
theorem C103_unreadable {F : Type} (m : Medium F) (name : String) (hadios : ∃ b, m.adios = .ok b)
    (hno : ∀ k, Tried name k → ¬ Recognises m k) : choose m name = .error .fail := by
  have : firstCompatible m (candidates name) = .ok none := by
    refine first_none m _ (fun _ _ _ => hadios) ?_
    by_cases hname : ∃ k, name = readerName k
    · obtain ⟨k, rfl⟩ := hname
      rw [candidates_named]
      intro q hq
      rw [List.mem_singleton] at hq
      subst hq
      exact hno k (Or.inl rfl)
    · push Not at hname
      intro q _
      exact hno q.2 (Or.inr hname)
  rw [choose, this]; rfl

/-- Nothing else is opened: the reader that is used is allowed, recognises the file, and is the first to do so. -/
theorem C103_sound {F : Type} (m : Medium F) (name : String) (k : Kind) (h : choose m name = .ok k) :
    Tried name k ∧ Recognises m k ∧ ∀ k', Tried name k' → readerRank k' < readerRank k → ¬ Recognises m k' := by
  have key : ∀ l, firstCompatible m l = .ok (some k) →
      ∃ l1 l2 s, l = l1 ++ (s, k) :: l2 ∧ Recognises m k ∧ ∀ q ∈ l1, ¬ Recognises m q.2 := by
    intro l
    induction l with
    | nil => intro h; simp [firstCompatible] at h
    | cons q l ih =>
      intro h
      simp only [firstCompatible, bind, Except.bind] at h
      cases hq : isCompatible m q.2 with
      | error e => rw [hq] at h; simp at h
      | ok b =>
        rw [hq] at h
        cases b with
        | true =>
          simp only [if_true, pure, Except.pure, Except.ok.injEq, Option.some.injEq] at h
          exact ⟨[], l, q.1, by rw [← h]; rfl, h ▸ (isCompatible_iff m _ true hq).1 rfl, by simp⟩
        | false =>
          obtain ⟨l1, l2, s, rfl, h1, h2⟩ := ih (by simpa using h)
          refine ⟨q :: l1, l2, s, rfl, h1, ?_⟩
          intro q' hq'
          rcases List.mem_cons.1 hq' with rfl | hq'
          · exact fun hr => by simpa using (isCompatible_iff m _ false hq).2 hr
          · exact h2 q' hq'
  have hc : firstCompatible m (candidates name) = .ok (some k) := by
    rw [choose] at h
    simp only [bind, Except.bind] at h
    cases hf : firstCompatible m (candidates name) with
    | error e => rw [hf] at h; simp at h
    | ok o => rw [hf] at h; cases o with
      | none => simp at h
      | some k' => simp only [pure, Except.pure, Except.ok.injEq] at h; rw [h]
  obtain ⟨l1, l2, s, e, hr, hl1⟩ := key _ hc
  by_cases hname : ∃ k', name = readerName k'
  · obtain ⟨k', rfl⟩ := hname
    rw [candidates_named] at e
    cases l1 with
    | nil =>
      simp only [List.nil_append, List.cons.injEq, Prod.mk.injEq] at e
      obtain ⟨⟨_, rfl⟩, _⟩ := e
      refine ⟨Or.inl rfl, hr, ?_⟩
      intro k'' ht hlt
      rcases ht with h | h
      · have : k'' = k' := by cases k'' <;> cases k' <;> simp_all [readerName]
        subst this; omega
      · exact absurd rfl (h k')
    | cons a l => simp at e
  · push Not at hname
    rw [candidates_other name hname] at e
    refine ⟨Or.inr hname, hr, fun k' _ hlt => ?_⟩
    obtain ⟨l, r, e', hl⟩ := readers_split k
    have hmem : (readerName k', k') ∈ l := (hl _).2 ⟨rfl, hlt⟩
    have hnd : readers.Nodup := by decide +kernel
    have hs : s = readerName k := by
      have : (s, k) ∈ readers := by rw [e]; simp
      revert this; cases k <;> simp [readers, readerName]
    rw [hs] at e
    have : l1 = l := by
      have h1 : (readerName k, k) ∉ l1 := by
        rw [e, List.nodup_append] at hnd
        exact fun hh => hnd.2.2 _ hh _ (by simp) rfl
      have h2 : (readerName k, k) ∉ l2 := by
        rw [e, List.nodup_append] at hnd
        exact (List.nodup_cons.1 hnd.2.1).1
      have := e.symm.trans e'
      exact (List.append_cons_inj_of_notMem h1 h2 |>.1 this).1
    rw [← this] at hmem
    exact hl1 _ hmem

/-- A file that is HDF5, and that the ADIOS library refuses with an exception of its own. -/
def c103File : Medium ℚ :=
  { adios := .error .fail,
    hdf := some { frame := some ⟨[0], [1], [2], ⟨[2, 1], [3, 4]⟩, none⟩ } }

/-- The full property is false: when the ADIOS library raises, the readers after it are never asked. -/
theorem C103_fails : ¬ C103_statement := by
  intro h
  have hno : ∀ k', ("" : String) ≠ readerName k' := by intro k'; cases k' <;> decide +kernel
  have := h c103File "" .h5 (Or.inr hno) ⟨_, rfl, Or.inl (by simp)⟩ (by
    intro k' _ hlt
    cases k' with
    | gkyl =>
      rintro ⟨rest, e, _⟩
      simp [c103File] at e
    | adios => intro e; simp [Recognises, c103File] at e
    | h5 => simp at hlt
    | flash => simp [readerRank] at hlt)
  have e : choose c103File "" = .error .fail := by
    rw [choose, candidates_other "" hno]; rfl
  rw [e] at this; cases this

/-- A file with FLASH blocks only is recognised by the last reader, and opening it always fails: that reader cannot load. -/
theorem C103_flash_fails (m : Medium ℚ) (name : String) (ctx : Ctx ℚ) (zs : List (Option String)) (comp : Option String)
    (h : choose m name = .ok .flash) : openFile m name ctx zs comp = .error .attributeError := by
  rw [openFile, h]; rfl

/-- C103: not vacuous: the same file is read when the reader is named, or when ADIOS is not installed. -/
example : choose c103File "h5" = .ok .h5 := C103_reader_partial c103File "h5" .h5 (Or.inr (Or.inl ⟨rfl, by simp⟩)) (Or.inl rfl)
  ⟨_, rfl, Or.inl (by simp)⟩ (by
    intro k' ht hlt
    exfalso
    rcases ht with h | h
    · cases k' <;> simp_all [readerName, readerRank]
    · exact absurd rfl (h .h5))

/-! ### C104: frames of the legacy format -/

/-- The metadata are recorded, or there were none. -/
theorem openFile_frame {F : Type} [_root_.Field F] (m : Medium F) (name : String) (ctx : Ctx F) (zs : List (Option String))
    (comp : Option String) (hch : choose m name = .ok .h5) (f : File F) (hf : m.hdf = some f) (fr : Frame F)
    (hfr : f.frame = some fr) :
    openFile m name ctx zs comp = loadFrame fr (triedCtx (name = "h5") ctx) := by
  rw [openFile, hch]
  simp only [bind, Except.bind, hf, hfr]

section
variable {F : Type} [_root_.Field F] [LinearOrder F] [IsStrictOrderedRing F]

/-- A frame with a component axis is returned as it is stored, however the reader was found: nodes, values, numbers of cells
and components, bounds and time. -/
theorem C104_frame_partial (m : Medium F) (name : String) (ctx : Ctx F) (zs : List (Option String)) (comp : Option String)
    (hch : choose m name = .ok .h5) (f : File F) (hf : m.hdf = some f) (fr : Frame F) (hfr : f.frame = some fr) (nc : Nat)
    (hgood : GoodFrame fr nc)
    (hord : ∀ (c : Nat) (lo up : F), fr.lower[c]? = some lo → fr.upper[c]? = some up → lo ≤ up) :
    ∃ d, openFile m name ctx zs comp = .ok d ∧ EquidistantNodes d fr.cells fr.lower fr.upper ∧ d.values = some fr.field ∧
      d.numCells = some fr.cells ∧ d.numComps = nc ∧ d.bounds = .ok (some (fr.lower, fr.upper)) ∧
      ∀ t, fr.time = some t → Dict.get? d.ctx.other "time" = some t := by
  rw [openFile_frame m name ctx zs comp hch f hf fr hfr]
  obtain ⟨g, hg, hglen, hgax⟩ := nodes_ok fr.cells fr.lower fr.upper hgood.lower hgood.upper hgood.cells
  simp only [loadFrame, bind, Except.bind, hg, pure, Except.pure]
  generalize hc : triedCtx (name = "h5") ctx = c
  refine ⟨_, rfl, ⟨g, rfl, hglen, hgax⟩, rfl, ?_⟩
  have hlast : fr.field.shape.getLastD 0 = nc := by rw [hgood.shape]; simp
  have hdrop : fr.field.shape.dropLast = fr.cells := by rw [hgood.shape]; simp
  have hlen : fr.field.shape.length = fr.cells.length + 1 := by rw [hgood.shape]; simp
  obtain ⟨k, hk⟩ : ∃ k, nc = k + 1 := ⟨nc - 1, by have := hgood.comps; omega⟩
  by_cases hne : nonempty (timeCtx fr c) = true
  · have hrec : record fr.cells fr.lower fr.upper fr.field.shape (timeCtx fr c) =
        { cells := some fr.cells, lower := some fr.lower, upper := some fr.upper, numComps := some nc,
          other := Dict.set (timeCtx fr c).other "grid_type" "uniform" } := by
      rw [record, if_pos hne, if_pos (by omega), hlast]
    rw [hrec]
    refine ⟨rfl, ?_, rfl, ?_⟩
    · simp [GData.numComps, hk]
    · intro t ht
      simp only [timeCtx, ht]
      rw [Dict.get?_set_ne _ _ (by decide), Dict.get?_set_self]
  · have hrec : record fr.cells fr.lower fr.upper fr.field.shape (timeCtx fr c) = timeCtx fr c := by
      rw [record, if_neg hne]
    rw [hrec]
    have htime : fr.time = none := by
      cases ht : fr.time with
      | none => rfl
      | some t =>
        exfalso; apply hne
        have : Dict.set c.other "time" t ≠ [] := by
          intro e
          have := Dict.get?_set_self c.other "time" t
          rw [e] at this; simp [Dict.get?] at this
        simp [nonempty, timeCtx, ht, this]
    have ht : timeCtx fr c = c := by simp [timeCtx, htime]
    rw [ht] at hne ⊢
    simp only [nonempty, Bool.or_eq_true, Bool.not_eq_true', not_or, Bool.not_eq_true, Option.isSome_eq_false_iff,
      Option.isNone_iff_eq_none] at hne
    obtain ⟨⟨⟨⟨h1, h2⟩, h3⟩, h4⟩, _⟩ := hne
    have hgeq : g = axesOf fr.lower fr.upper fr.cells := by
      rw [nodes, if_neg (by rw [hgood.lower, hgood.upper]; omega), Except.ok.injEq] at hg
      rw [← hg, axesOf_eq]
    have hext := extrema_axes fr.cells fr.lower fr.upper hgood.lower hgood.upper hgood.cells hord
    refine ⟨by simp [GData.numCells, h1, hdrop], by simp only [GData.numComps, h2, hlast], ?_, by simp [htime]⟩
    simp only [GData.bounds, h3, h4, hlen, Nat.add_sub_cancel, hgeq, hext.1, hext.2, bind, Except.bind, pure, Except.pure]

/-- A frame without component axis, when the reader is found automatically: one component, and all axes are directions. -/
theorem C104_scalar_partial (m : Medium F) (name : String) (hname : name ≠ "h5") (ctx : Ctx F) (zs : List (Option String))
    (comp : Option String) (hch : choose m name = .ok .h5) (f : File F) (hf : m.hdf = some f) (fr : Frame F)
    (hfr : f.frame = some fr) (hlo : fr.lower.length = fr.cells.length) (hup : fr.upper.length = fr.cells.length)
    (hpos : ∀ n ∈ fr.cells, 0 < n) (hshape : fr.field.shape = fr.cells) :
    ∃ d, openFile m name ctx zs comp = .ok d ∧ EquidistantNodes d fr.cells fr.lower fr.upper ∧ d.values = some fr.field ∧
      d.numCells = some fr.cells ∧ d.numComps = 1 ∧ d.bounds = .ok (some (fr.lower, fr.upper)) := by
  rw [openFile_frame m name ctx zs comp hch f hf fr hfr]
  obtain ⟨g, hg, hglen, hgax⟩ := nodes_ok fr.cells fr.lower fr.upper hlo hup hpos
  simp only [loadFrame, bind, Except.bind, hg, pure, Except.pure]
  have hset : ∀ (o : Dict String) (k v : String), Dict.set o k v ≠ [] := by
    intro o k v e
    have := Dict.get?_set_self o k v
    rw [e] at this; simp [Dict.get?] at this
  have hc : (triedCtx (name = "h5") ctx).other ≠ [] := by
    unfold triedCtx
    split
    · rename_i h
      rcases h with h | h
      · simp [hname] at h
      · intro e; rw [e] at h; simp [Dict.get?] at h
    · exact hset _ _ _
  have ht : (timeCtx fr (triedCtx (name = "h5") ctx)).other ≠ [] := by
    unfold timeCtx
    cases fr.time with
    | none => exact hc
    | some t => exact hset _ _ _
  have hne : nonempty (timeCtx fr (triedCtx (name = "h5") ctx)) = true := by
    simp [nonempty, ht]
  rw [record, if_pos hne, if_neg (by rw [hshape]; omega)]
  exact ⟨_, rfl, ⟨g, rfl, hglen, hgax⟩, rfl, rfl, rfl, rfl⟩

end

/-- The property: in particular, naming the reader changes nothing. -/
def C104_statement : Prop := ∀ (m : Medium ℚ) (f : File ℚ) (fr : Frame ℚ), m.hdf = some f → f.frame = some fr →
  choose m "" = .ok .h5 → ∀ d d', openFile m "" {} [] none = .ok d → openFile m "h5" {} [] none = .ok d' →
    d'.numCells = d.numCells ∧ d'.numComps = d.numComps

/-- A frame without component axis: a 2 × 3 field of single numbers. -/
def c104File : Medium ℚ :=
  { hdf := some { frame := some ⟨[0, 0], [1, 1], [2, 3], ⟨[2, 3], [1, 2, 3, 4, 5, 6]⟩, none⟩ } }

example : let fr : Frame ℚ := ⟨[0, 0], [1, 1], [2, 3], ⟨[2, 3], [1, 2, 3, 4, 5, 6]⟩, none⟩
    c104File.hdf = some { frame := some fr } ∧ choose c104File "" = .ok .h5 ∧ fr.field.shape = fr.cells := by
  have hno : ∀ k', ("" : String) ≠ readerName k' := by intro k'; cases k' <;> decide +kernel
  exact ⟨rfl, by rw [choose, candidates_other "" hno]; rfl, rfl⟩

/-- The full property is false: a file without time and component axis has 2 × 3 cells and one component when the reader is
found automatically, and 2 cells with 3 components when it is named. -/
theorem C104_named_fails : ¬ C104_statement := by
  intro h
  have hno : ∀ k', ("" : String) ≠ readerName k' := by intro k'; cases k' <;> decide +kernel
  have h0 : choose c104File "" = .ok .h5 := by rw [choose, candidates_other "" hno]; rfl
  have h1 : choose c104File "h5" = .ok .h5 := by
    have := candidates_named .h5
    simp only [readerName] at this
    rw [choose, this]; rfl
  have e0 := openFile_frame c104File "" {} [] none h0 _ rfl _ rfl
  have e1 := openFile_frame c104File "h5" {} [] none h1 _ rfl _ rfl
  have := h c104File _ _ rfl rfl h0 _ _ (e0.trans rfl) (e1.trans rfl)
  revert this
  decide +kernel

/-- The selections given on opening are ignored by this reader, whatever they are. -/
theorem C104_selection_fails {F : Type} [_root_.Field F] (m : Medium F) (name : String) (ctx : Ctx F)
    (zs : List (Option String)) (comp : Option String) (hch : choose m name = .ok .h5) (f : File F) (hf : m.hdf = some f)
    (fr : Frame F) (hfr : f.frame = some fr) (d : GData F) (h : openFile m name ctx zs comp = .ok d) :
    d.values = some fr.field := by
  rw [openFile_frame m name ctx zs comp hch f hf fr hfr] at h
  simp only [loadFrame, bind, Except.bind, pure, Except.pure] at h
  split at h
  · simp at h
  · rw [Except.ok.injEq] at h; rw [← h]

/-- C104: not vacuous: a 2-D frame with two components. -/
def c104Good : Frame ℚ := ⟨[0, -1], [1, 1], [1, 2], ⟨[1, 2, 2], [1, 2, 3, 4]⟩, some "0.5"⟩

example : GoodFrame c104Good 2 ∧
    ∀ (c : Nat) (lo up : ℚ), c104Good.lower[c]? = some lo → c104Good.upper[c]? = some up → lo ≤ up := by
  refine ⟨⟨rfl, rfl, by decide, by decide, rfl⟩, ?_⟩
  intro c lo up h1 h2
  match c with
  | 0 => simp [c104Good] at h1 h2; subst h1 h2; norm_num
  | 1 => simp [c104Good] at h1 h2; subst h1 h2; norm_num
  | c + 2 => simp [c104Good] at h1

/-! ### C105: diagnostics of the legacy format -/

section
variable {F : Type} [_root_.Field F] [LinearOrder F] [IsStrictOrderedRing F]

/-- The property for one file: the dataset has the stored values at the stored times. -/
def C105_statement (d : Diagnostic F) (m : Medium F) : Prop :=
  ∃ r, openFile m "" {} [] none = .ok r ∧ r.values = some d.values ∧ r.grid = some [d.times]

/-- The values are the stored ones, and the bounds the first and the last time; the times between are replaced by equally
spaced nodes, one more than there are times. -/
theorem C105_diagnostic_partial (m : Medium F) (ctx : Ctx F) (hch : choose m "" = .ok .h5) (f : File F) (hf : m.hdf = some f)
    (hfr : f.frame = none) (d : Diagnostic F) (hd : f.diagnostic = some d) (ts : List F) (n : Nat)
    (hn : ts.length = n + 1) (ht : d.times = NArr.ofList ts) :
    ∃ r, openFile m "" ctx [] none = .ok r ∧ r.values = some d.values ∧
      r.bounds = .ok (some ([ts[0]], [ts[n]])) ∧ r.numCells = some [n + 1] ∧
      EquidistantNodes r [n + 1] [ts[0]] [ts[n]] := by
  have hhead : d.times.data.head? = some ts[0] := by
    rw [ht]; simp [NArr.ofList, List.head?_eq_getElem?]
  have hlast : d.times.data.getLast? = some ts[n] := by
    rw [ht]; simp [NArr.ofList, List.getLast?_eq_getElem?, hn]
  have hshape : d.times.shape = [n + 1] := by rw [ht]; simp [NArr.ofList, hn]
  obtain ⟨g, hg, hglen, hgax⟩ := nodes_ok [n + 1] [ts[0]] [ts[n]] rfl rfl (by simp)
  have hne : nonempty (triedCtx (decide ("" = "h5")) ctx) = true := by
    have e1 : ("" = "h5") = False := by simp
    simp only [triedCtx, e1, decide_false]
    split
    · next h =>
      have : ctx.other ≠ [] := by
        intro e; rw [e] at h; simp [Dict.get?] at h
      simp [nonempty, this]
    · have : Dict.set ctx.other "grid_type" "uniform" ≠ [] := by
        intro e
        have := Dict.get?_set_self ctx.other "grid_type" "uniform"
        rw [e] at this; simp [Dict.get?] at this
      simp [nonempty, this]
  rw [openFile, hch]
  simp only [bind, Except.bind, hf, hfr, hd, loadDiagnostic, hhead, hlast, hshape, List.length_singleton, ne_eq,
    not_true_eq_false, if_false, hg, pure, Except.pure, record, hne, if_true]
  exact ⟨_, rfl, rfl, rfl, rfl, ⟨g, rfl, hglen, hgax⟩⟩

/-- The property holds for no file at all: the coordinates never are the stored times. -/
theorem C105_fails (m : Medium F) (hch : choose m "" = .ok .h5) (f : File F) (hf : m.hdf = some f)
    (hfr : f.frame = none) (d : Diagnostic F) (hd : f.diagnostic = some d) (ts : List F) (n : Nat)
    (hn : ts.length = n + 1) (ht : d.times = NArr.ofList ts) : ¬ C105_statement d m := by
  rintro ⟨r, hr, _, hgrid⟩
  obtain ⟨r', hr', _, _, _, g, hg, _, hax⟩ := C105_diagnostic_partial m {} hch f hf hfr d hd ts n hn ht
  rw [hr, Except.ok.injEq] at hr'
  subst hr'
  obtain ⟨a, ha, hsh, _⟩ := hax 0 (n + 1) _ _ rfl rfl rfl
  rw [hgrid, Option.some.injEq] at hg
  rw [← hg] at ha
  simp only [List.getElem?_cons_zero, Option.some.injEq] at ha
  rw [← ha, ht] at hsh
  simp [NArr.ofList, hn] at hsh

end

/-- C105: not vacuous: a diagnostic with three unequally spaced times. -/
def c105File : Medium ℚ :=
  { hdf := some { diagnostic := some ⟨NArr.ofList [0, 1, 10], ⟨[3, 1], [5, 6, 7]⟩⟩ } }

example : choose c105File "" = .ok .h5 := by
  rw [choose, candidates_other "" (by intro k'; cases k' <;> decide +kernel)]; rfl

/-! ### C106: FLASH files -/

section
variable {F : Type} [_root_.Field F] [LinearOrder F] [IsStrictOrderedRing F] [FloorRing F]

/-- The property: when the blocks lie on a lattice and the leaves do not overlap, every cell of the result that lies in a cell
of a leaf block has the value stored there. -/
def C106_statement (F : Type) [_root_.Field F] [LinearOrder F] [FloorRing F] : Prop :=
  ∀ (f : Flash F) (n nzb nyb nxb Nx Ny : Nat) (lox hx loy hy : F), f.var.shape = [n, nzb, nyb, nxb] →
    OnLattice f n nxb 0 lox hx Nx → OnLattice f n nyb 1 loy hy Ny →
    (∀ b b' x y, b < n → b' < n → LeafBlock f b → LeafBlock f b' → InBlock f 0 lox hx x b → InBlock f 1 loy hy y b →
      InBlock f 0 lox hx x b' → InBlock f 1 loy hy y b' → b = b') →
    ∃ g v, flashData f = .ok (g, v) ∧ ∀ b x y i j r, LeafBlock f b → InCell f nxb 0 lox hx x b i → InCell f nyb 1 loy hy y b j →
      f.var.get? [b, 0, j, i] = some r → v.get? [x, y, 0] = some r

omit [_root_.Field F] [LinearOrder F] [IsStrictOrderedRing F] [FloorRing F] in
theorem var_range {f : Flash F} {n nzb nyb nxb b i j : Nat} {r : F} (hs : f.var.shape = [n, nzb, nyb, nxb])
    (h : f.var.get? [b, 0, j, i] = some r) : b < n ∧ j < nyb ∧ i < nxb := by
  rw [NArr.get?] at h
  split at h
  · next hr =>
    rw [hs] at hr
    simp only [inRange, Bool.and_eq_true, decide_eq_true_eq, Bool.and_true] at hr
    exact ⟨hr.1, hr.2.2.1, hr.2.2.2⟩
  · simp at h

theorem in_range {f : Flash F} {n nb d N : Nat} {lo h : F} {X M : Nat → Nat} (H : Placed f n nb d lo h N X M) {b x : Nat}
    (hb : b < n) (hx : x < X b + nb * M b) : x < N := by
  have := H.lat.bound b hb
  rw [H.size b hb, H.edge b hb] at this
  have e : lo + X b * h + M b * (nb * h) = lo + ((X b + nb * M b : Nat) : F) * h := by push_cast; ring
  rw [e, add_le_add_iff_left, mul_le_mul_iff_left₀ H.lat.pos, Nat.cast_le] at this
  omega

/-- The nodes: the lattice. -/
theorem C106_grid (f : Flash F) (n nzb nyb nxb Nx Ny : Nat) (lox hx loy hy : F) (hs : f.var.shape = [n, nzb, nyb, nxb])
    (HX : OnLattice f n nxb 0 lox hx Nx) (HY : OnLattice f n nyb 1 loy hy Ny) :
    ∃ gx gy v, flashData f = .ok ([gx, gy], v) ∧ gx.shape = [Nx + 1] ∧ gy.shape = [Ny + 1] ∧ v.shape = [Nx, Ny, 1] ∧
      (∀ k ≤ Nx, gx.get? [k] = some (lox + k * hx)) ∧ (∀ k ≤ Ny, gy.get? [k] = some (loy + k * hy)) := by
  obtain ⟨X, MX, PX⟩ := placed HX
  obtain ⟨Y, MY, PY⟩ := placed HY
  obtain ⟨v, hv, hsh, _⟩ := flashData_ok hs PX PY
  have hN : ∀ {d nb N lo h} {X M : Nat → Nat}, Placed f n nb d lo h N X M → 0 < N := by
    intro d nb N lo h X M H
    obtain ⟨b, hb, _⟩ := H.lat.finest
    have hM : 0 < M b := by
      obtain ⟨m, hm, e⟩ := H.lat.size b hb
      rw [H.size b hb] at e
      have : (0 : F) < nb := by exact_mod_cast H.lat.nb_pos
      have := mul_right_cancel₀ (mul_pos this H.lat.pos).ne' e
      have : M b = m := by exact_mod_cast this
      omega
    have := Nat.mul_pos H.lat.nb_pos hM
    exact Nat.lt_of_le_of_lt (Nat.zero_le _) (in_range H hb (x := 0) (by omega))
  have ax : ∀ (lo h : F) (N : Nat), 0 < N → ∀ k ≤ N,
      (NArr.ofList (GkylReader.linspace lo (lo + N * h) (N + 1))).get? [k] = some (lo + k * h) := by
    intro lo h N hN k hk
    have := GkylReader.linspace_get lo (lo + N * h) hN hk
    simp only [NArr.ofList, NArr.get?, GkylReader.linspace_length, inRange, ravel]
    rw [if_pos (by simp; omega)]
    have hN' : (N : F) ≠ 0 := by exact_mod_cast hN.ne'
    have e : (k : F) * ((lo + N * h - lo) / N) = k * h := by field_simp; ring
    rw [e] at this
    simpa using this
  exact ⟨_, _, v, hv, by simp [NArr.ofList, GkylReader.linspace_length], by simp [NArr.ofList, GkylReader.linspace_length], hsh,
    ax _ _ _ (hN PX), ax _ _ _ (hN PY)⟩

/-- Missing for the full property: that the order of the blocks in the file does not matter.  A cell has the stored value if
no leaf block later in the file contains its lower corner (faces included), as is so when every block comes after its
neighbours at the lower sides. -/
theorem C106_order_partial (f : Flash F) (n nzb nyb nxb Nx Ny : Nat) (lox hx loy hy : F)
    (hs : f.var.shape = [n, nzb, nyb, nxb]) (HX : OnLattice f n nxb 0 lox hx Nx) (HY : OnLattice f n nyb 1 loy hy Ny) :
    ∃ g v, flashData f = .ok (g, v) ∧ ∀ b x y i j r, LeafBlock f b → InCell f nxb 0 lox hx x b i → InCell f nyb 1 loy hy y b j →
      (∀ b', b < b' → b' < n → LeafBlock f b' → ¬ (Reaches f 0 lox hx x b' ∧ Reaches f 1 loy hy y b')) →
      f.var.get? [b, 0, j, i] = some r → v.get? [x, y, 0] = some r := by
  obtain ⟨X, MX, PX⟩ := placed HX
  obtain ⟨Y, MY, PY⟩ := placed HY
  obtain ⟨v, hv, _, hval⟩ := flashData_ok hs PX PY
  refine ⟨_, v, hv, ?_⟩
  intro b x y i j r hleaf hcx hcy hlater hr
  obtain ⟨hb, hj, hi⟩ := var_range hs hr
  rw [inCell_iff HX.pos HX.nb_pos (PX.size b hb) (PX.edge b hb)] at hcx
  rw [inCell_iff HY.pos HY.nb_pos (PY.size b hb) (PY.edge b hb)] at hcy
  have hxN : x < Nx := in_range PX hb (by
    have := Nat.mul_le_mul_right (MX b) (Nat.succ_le_of_lt hi); simp only [Nat.succ_eq_add_one] at this; omega)
  have hyN : y < Ny := in_range PY hb (by
    have := Nat.mul_le_mul_right (MY b) (Nat.succ_le_of_lt hj); simp only [Nat.succ_eq_add_one] at this; omega)
  rw [hval x y hxN hyN, blocks_last hb hleaf hi hj hcx hcy ?_, hr]
  · rfl
  · intro b' hbb' hb' hl' hcon
    apply hlater b' hbb' hb' hl'
    rw [reaches_iff HX.pos (PX.size b' hb') (PX.edge b' hb'), reaches_iff HY.pos (PY.size b' hb') (PY.edge b' hb')]
    exact hcon

/-- Whatever the order of the blocks, a cell that is neither in the first row nor in the first column of its block has the
stored value. -/
theorem C106_inner (f : Flash F) (n nzb nyb nxb Nx Ny : Nat) (lox hx loy hy : F)
    (hs : f.var.shape = [n, nzb, nyb, nxb]) (HX : OnLattice f n nxb 0 lox hx Nx) (HY : OnLattice f n nyb 1 loy hy Ny)
    (hdisj : ∀ b b' x y, b < n → b' < n → LeafBlock f b → LeafBlock f b' → InBlock f 0 lox hx x b → InBlock f 1 loy hy y b →
      InBlock f 0 lox hx x b' → InBlock f 1 loy hy y b' → b = b') :
    ∃ g v, flashData f = .ok (g, v) ∧ ∀ b x y i j r, LeafBlock f b → InCell f nxb 0 lox hx x b i → InCell f nyb 1 loy hy y b j →
      blockEdge f 0 b < lox + x * hx → blockEdge f 1 b < loy + y * hy →
      f.var.get? [b, 0, j, i] = some r → v.get? [x, y, 0] = some r := by
  obtain ⟨g, v, hv, hval⟩ := C106_order_partial f n nzb nyb nxb Nx Ny lox hx loy hy hs HX HY
  refine ⟨g, v, hv, ?_⟩
  intro b x y i j r hleaf hcx hcy hex hey hr
  refine hval b x y i j r hleaf hcx hcy ?_ hr
  intro b' hbb' hb' hl' hcon
  obtain ⟨X, MX, PX⟩ := placed HX
  obtain ⟨Y, MY, PY⟩ := placed HY
  obtain ⟨hb, hj, hi⟩ := var_range hs hr
  rw [inCell_iff HX.pos HX.nb_pos (PX.size b hb) (PX.edge b hb)] at hcx
  rw [inCell_iff HY.pos HY.nb_pos (PY.size b hb) (PY.edge b hb)] at hcy
  rw [reaches_iff HX.pos (PX.size b' hb') (PX.edge b' hb'), reaches_iff HY.pos (PY.size b' hb') (PY.edge b' hb')] at hcon
  have h1 : X b < x := by
    rw [PX.edge b hb, add_lt_add_iff_left, mul_lt_mul_iff_left₀ HX.pos, Nat.cast_lt] at hex; exact hex
  have h2 : Y b < y := by
    rw [PY.edge b hb, add_lt_add_iff_left, mul_lt_mul_iff_left₀ HY.pos, Nat.cast_lt] at hey; exact hey
  have w1 := Nat.mul_le_mul_right (MX b) (Nat.succ_le_of_lt hi)
  have w2 := Nat.mul_le_mul_right (MY b) (Nat.succ_le_of_lt hj)
  simp only [Nat.succ_eq_add_one] at w1 w2
  have posM : ∀ {d nb N lo h} {X M : Nat → Nat}, Placed f n nb d lo h N X M → 0 < nb * M b' := by
    intro d nb N lo h X M H
    obtain ⟨m, hm, e⟩ := H.lat.size b' hb'
    rw [H.size b' hb'] at e
    have : (0 : F) < nb := by exact_mod_cast H.lat.nb_pos
    have := mul_right_cancel₀ (mul_pos this H.lat.pos).ne' e
    have : M b' = m := by exact_mod_cast this
    exact Nat.mul_pos H.lat.nb_pos (by omega)
  have p1 := posM PX
  have p2 := posM PY
  have step : ∀ {lo w : Nat} {z A W : Nat}, lo < z → z < lo + w → A ≤ z → z ≤ A + W → 0 < W →
      ∃ z', (lo ≤ z' ∧ z' < lo + w) ∧ (A ≤ z' ∧ z' < A + W) := by
    intro lo w z A W a b c d e
    by_cases hz : z < A + W
    · exact ⟨z, ⟨by omega, b⟩, ⟨c, hz⟩⟩
    · exact ⟨z - 1, ⟨by omega, by omega⟩, ⟨by omega, by omega⟩⟩
  obtain ⟨x', hx1, hx2⟩ := step (w := nxb * MX b) h1 (by omega) hcon.1.1 hcon.1.2 p1
  obtain ⟨y', hy1, hy2⟩ := step (w := nyb * MY b) h2 (by omega) hcon.2.1 hcon.2.2 p2
  have := hdisj b b' x' y' hb hb' hleaf hl' ((inBlock_iff HX.pos (PX.size b hb) (PX.edge b hb)).2 hx1)
    ((inBlock_iff HY.pos (PY.size b hb) (PY.edge b hb)).2 hy1)
    ((inBlock_iff HX.pos (PX.size b' hb') (PX.edge b' hb')).2 hx2)
    ((inBlock_iff HY.pos (PY.size b' hb') (PY.edge b' hb')).2 hy2)
  omega

/-- A cell whose lower corner no leaf block contains is zero. -/
theorem C106_empty (f : Flash F) (n nzb nyb nxb Nx Ny : Nat) (lox hx loy hy : F)
    (hs : f.var.shape = [n, nzb, nyb, nxb]) (HX : OnLattice f n nxb 0 lox hx Nx) (HY : OnLattice f n nyb 1 loy hy Ny) :
    ∃ g v, flashData f = .ok (g, v) ∧ ∀ x y, x < Nx → y < Ny →
      (∀ b < n, LeafBlock f b → ¬ (Reaches f 0 lox hx x b ∧ Reaches f 1 loy hy y b)) → v.get? [x, y, 0] = some 0 := by
  obtain ⟨X, MX, PX⟩ := placed HX
  obtain ⟨Y, MY, PY⟩ := placed HY
  obtain ⟨v, hv, _, hval⟩ := flashData_ok hs PX PY
  refine ⟨_, v, hv, ?_⟩
  intro x y hxN hyN hno
  rw [hval x y hxN hyN, blocks_none]
  intro b' hb' hl' hcon
  apply hno b' hb' hl'
  rw [reaches_iff HX.pos (PX.size b' hb') (PX.edge b' hb'), reaches_iff HY.pos (PY.size b' hb') (PY.edge b' hb')]
  exact hcon

end

/-- Two blocks of one cell, side by side on `[0, 2] × [0, 1]`, with the values 5 (left) and 7 (right): the left block first, or
the right one first. -/
def c106File (leftFirst : Bool) : Flash ℚ :=
  if leftFirst then ⟨⟨[2, 2], [1/2, 1/2, 3/2, 1/2]⟩, ⟨[2, 2], [1, 1, 1, 1]⟩, [1, 1], ⟨[2, 1, 1, 1], [5, 7]⟩⟩
  else ⟨⟨[2, 2], [3/2, 1/2, 1/2, 1/2]⟩, ⟨[2, 2], [1, 1, 1, 1]⟩, [1, 1], ⟨[2, 1, 1, 1], [7, 5]⟩⟩

theorem c106_size (o : Bool) : ∀ d < 2, ∀ b < 2, blockSize (c106File o) d b = 1 := by
  revert o; decide +kernel

theorem c106_edge (o : Bool) : blockEdge (c106File o) 0 0 = (if o then 0 else 1) ∧
    blockEdge (c106File o) 0 1 = (if o then 1 else 0) ∧ blockEdge (c106File o) 1 0 = 0 ∧ blockEdge (c106File o) 1 1 = 0 := by
  revert o; decide +kernel

theorem c106_x (o : Bool) : OnLattice (c106File o) 2 1 0 0 1 2 := by
  have hs := c106_size o 0 (by decide)
  obtain ⟨h0, h1, _, _⟩ := c106_edge o
  refine ⟨by norm_num, by decide, fun b hb => ⟨1, by decide, by rw [hs b hb]; norm_num⟩, ?_, ⟨0, by decide, by
    rw [hs 0 (by decide)]; norm_num⟩, ?_, ?_, ?_⟩
  · intro b hb
    interval_cases b
    · exact ⟨if o then 0 else 1, by rw [h0]; cases o <;> norm_num⟩
    · exact ⟨if o then 1 else 0, by rw [h1]; cases o <;> norm_num⟩
  · cases o
    · exact ⟨1, by decide, by rw [h1]; norm_num⟩
    · exact ⟨0, by decide, by rw [h0]; norm_num⟩
  · intro b hb
    rw [hs b hb]
    interval_cases b
    · rw [h0]; cases o <;> norm_num
    · rw [h1]; cases o <;> norm_num
  · cases o
    · exact ⟨0, by decide, by rw [h0, hs 0 (by decide)]; norm_num⟩
    · exact ⟨1, by decide, by rw [h1, hs 1 (by decide)]; norm_num⟩

theorem c106_y (o : Bool) : OnLattice (c106File o) 2 1 1 0 1 1 := by
  have hs := c106_size o 1 (by decide)
  obtain ⟨_, _, h0, h1⟩ := c106_edge o
  refine ⟨by norm_num, by decide, fun b hb => ⟨1, by decide, by rw [hs b hb]; norm_num⟩, ?_, ⟨0, by decide, by
    rw [hs 0 (by decide)]; norm_num⟩, ⟨0, by decide, h0⟩, ?_, ⟨0, by decide, by rw [h0, hs 0 (by decide)]; norm_num⟩⟩
  · intro b hb
    interval_cases b
    · exact ⟨0, by rw [h0]; norm_num⟩
    · exact ⟨0, by rw [h1]; norm_num⟩
  · intro b hb
    rw [hs b hb]
    interval_cases b
    · rw [h0]; norm_num
    · rw [h1]; norm_num

theorem c106_disjoint (o : Bool) (b b' x : Nat) (hb : b < 2) (hb' : b' < 2) (h : InBlock (c106File o) 0 0 1 x b)
    (h' : InBlock (c106File o) 0 0 1 x b') : b = b' := by
  have hs := c106_size o 0 (by decide)
  obtain ⟨h0, h1, _, _⟩ := c106_edge o
  unfold InBlock at h h'
  rw [hs b hb] at h
  rw [hs b' hb'] at h'
  push_cast at h h'
  interval_cases b <;> interval_cases b' <;> first | rfl | skip
  all_goals
    exfalso
    rw [h0, h1] at *
    cases o <;> simp only [if_true, Bool.false_eq_true, if_false] at h h' <;> linarith [h.1, h.2, h'.1, h'.2]

/-- The full property is false: with the right block first in the file, the left one is written over it. -/
theorem C106_fails : ¬ C106_statement ℚ := by
  intro h
  obtain ⟨g, v, hv, hval⟩ := h (c106File false) 2 1 1 1 2 1 0 1 0 1 rfl (c106_x false) (c106_y false)
    (fun b b' x y hb hb' _ _ h1 _ h2 _ => c106_disjoint false b b' x hb hb' h1 h2)
  have hs0 := c106_size false 0 (by decide) 0 (by decide)
  have hs1 := c106_size false 1 (by decide) 0 (by decide)
  obtain ⟨h0, _, h1, _⟩ := c106_edge false
  have := hval 0 1 0 0 0 7 rfl (by unfold InCell; rw [hs0, h0]; norm_num) (by unfold InCell; rw [hs1, h1]; norm_num)
    (by decide +kernel)
  have e : ((flashData (c106File false)).toOption.bind fun p => p.2.get? [1, 0, 0]) = some 5 := by decide +kernel
  rw [hv] at e
  simp only [Except.toOption, Option.bind_some] at e
  rw [this] at e
  norm_num at e

/-- C106: not vacuous: with the left block first both values are right. -/
example : ((flashData (c106File true)).toOption.map fun p => p.2.data) = some [5, 7] := by decide +kernel

end Pgkyl
