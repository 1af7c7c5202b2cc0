import Verif.Props.Ev
/-! # Grid and metadata along a run of the `ev` machine -/

namespace Pgkyl
namespace Ev
open Spec

section
variable {V : Type}

theorem nodup_set {d : Dict V} {k : String} {v : V} (h : (d.map Prod.fst).Nodup) :
    ((Dict.set d k v).map Prod.fst).Nodup ∧ ∀ x, x ∈ (Dict.set d k v).map Prod.fst → x = k ∨ x ∈ d.map Prod.fst := by
  induction d with
  | nil => simp [Dict.set]
  | cons e d ih =>
    obtain ⟨a, b⟩ := e
    rw [List.map_cons, List.nodup_cons] at h
    simp only [Dict.set]
    split
    · rename_i ha
      subst ha
      exact ⟨by simpa using h, fun x hx => by simp at hx ⊢; tauto⟩
    · rename_i ha
      obtain ⟨h1, h2⟩ := ih h.2
      refine ⟨?_, fun x hx => ?_⟩
      · rw [List.map_cons, List.nodup_cons]
        refine ⟨fun hm => ?_, h1⟩
        rcases h2 a hm with h' | h'
        · exact ha h'
        · exact h.1 h'
      · rw [List.map_cons, List.mem_cons] at hx ⊢
        rcases hx with hx | hx
        · exact .inr (.inl hx)
        · rcases h2 x hx with h' | h' <;> tauto

theorem nodup_collect (cmp : V → V → Bool) : ∀ (L : List (String × V)) (acc : Dict V × List String),
    (acc.1.map Prod.fst).Nodup → ((L.foldl (collect cmp) acc).1.map Prod.fst).Nodup
  | [], _, h => h
  | e :: L, acc, h => by
    refine nodup_collect cmp L _ ?_
    simp only [collect]
    split
    · split <;> exact h
    · exact (nodup_set h).1

theorem nodup_pops : ∀ (ks : List String) (d d' : Dict V), (d.map Prod.fst).Nodup → ks.foldlM pop d = .ok d' →
    (d'.map Prod.fst).Nodup
  | [], d, d', h, h' => by
    simp only [List.foldlM_nil, pure, Except.pure, Except.ok.injEq] at h'
    exact h' ▸ h
  | k :: ks, d, d', h, h' => by
    by_cases hm : Dict.mem d k = true
    · rw [Space.foldlM_ok_cons] at h'
      simp only [pop, if_pos hm] at h'
      exact nodup_pops ks (Dict.del d k) d' (h.sublist (List.Sublist.map _ List.filter_sublist)) h'
    · rw [Space.foldlM_ok_cons] at h'
      simp [pop, hm] at h'

/-- The merged metadata are a dictionary. -/
theorem mergeMeta_nodup {cmp : V → V → Bool} {ds : List (Dict V)} {m : Dict V} (h : mergeMeta cmp ds = .ok m) :
    (m.map Prod.fst).Nodup := by
  simp only [mergeMeta, foldl_dicts] at h
  exact nodup_pops _ _ _ (nodup_collect cmp _ _ (by simp)) h

end

variable {F : Type}

/-- Every entry has a value of the kind its key asks for. -/
def Kinds (m : Dict (MetaVal F)) : Prop := ∀ k v, (k, v) ∈ m → (k ∈ sizeKeys ↔ ∀ s, v ≠ .str s)

theorem ctxDict_mem {c : Ctx F} {k : String} {v : MetaVal F} (h : (k, v) ∈ ctxDict c) :
    (k ∈ sizeKeys ∧ ∀ s, v ≠ .str s) ∨ ∃ s, v = .str s ∧ (k, s) ∈ c.other := by
  simp only [ctxDict, List.mem_append, List.mem_map, Prod.mk.injEq] at h
  rcases h with (((h | h) | h) | h) | ⟨e, he, rfl, rfl⟩
  · split at h
    · simp at h; left; simp [h, sizeKeys]
    · simp at h
  · split at h
    · simp at h; left; simp [h, sizeKeys]
    · simp at h
  · split at h
    · simp at h; left; simp [h, sizeKeys]
    · simp at h
  · split at h
    · simp at h; left; simp [h, sizeKeys]
    · simp at h
  · exact .inr ⟨e.2, rfl, he⟩

theorem ctxDict_kinds {c : Ctx F} (hc : ProperMeta c) : Kinds (ctxDict c) := by
  intro k v h
  rcases ctxDict_mem h with ⟨h1, h2⟩ | ⟨s, rfl, h2⟩
  · exact ⟨fun _ => h2, fun _ => h1⟩
  · refine ⟨fun hk => absurd (List.mem_map.2 ⟨_, h2, rfl⟩) (hc.2 k hk), fun h => absurd rfl (h s)⟩

theorem ctxDict_nodup {c : Ctx F} (hc : ProperMeta c) : ((ctxDict c).map Prod.fst).Nodup := by
  obtain ⟨h1, h2⟩ := hc
  have hother : (c.other.map fun e => ((e.1, .str e.2) : String × MetaVal F)).map Prod.fst = c.other.map Prod.fst := by
    rw [List.map_map]; rfl
  have e : (ctxDict c).map Prod.fst =
      ((match c.cells with | some _ => ["cells"] | none => []) ++
      (match c.numComps with | some _ => ["num_comps"] | none => []) ++
      (match c.lower with | some _ => ["lower"] | none => []) ++
      (match c.upper with | some _ => ["upper"] | none => [])) ++ c.other.map Prod.fst := by
    simp only [ctxDict, List.map_append, hother]
    cases c.cells <;> cases c.numComps <;> cases c.lower <;> cases c.upper <;> rfl
  rw [e, List.nodup_append]
  refine ⟨?_, h1, ?_⟩
  · cases c.cells <;> cases c.numComps <;> cases c.lower <;> cases c.upper <;> simp
  · intro a ha b hb hab
    subst hab
    refine h2 a ?_ hb
    revert ha
    cases c.cells <;> cases c.numComps <;> cases c.lower <;> cases c.upper <;> simp [sizeKeys] <;> tauto

theorem ctxDict_get? {c : Ctx F} (hc : ProperMeta c) {k s : String} :
    Dict.get? (ctxDict c) k = some (.str s) ↔ Dict.get? c.other k = some s := by
  rw [dict_get?_iff (ctxDict_nodup hc), dict_get?_iff hc.1]
  constructor
  · intro h
    rcases ctxDict_mem h with ⟨-, h2⟩ | ⟨s', h1, h2⟩
    · exact absurd rfl (h2 s)
    · cases h1; exact h2
  · intro h
    simp only [ctxDict, List.mem_append, List.mem_map]
    exact .inr ⟨_, h, rfl⟩

theorem ofDict_mem {m : Dict (MetaVal F)} {k s : String} : (k, s) ∈ (ofDict m).other ↔ (k, .str s) ∈ m := by
  simp only [ofDict, List.mem_filterMap]
  constructor
  · rintro ⟨⟨a, b⟩, h1, h2⟩
    cases b <;> simp at h2
    obtain ⟨rfl, rfl⟩ := h2
    exact h1
  · intro h
    exact ⟨_, h, rfl⟩

theorem ofDict_keys (m : Dict (MetaVal F)) :
    ((ofDict m).other.map Prod.fst).Sublist (m.map Prod.fst) := by
  induction m with
  | nil => exact .slnil
  | cons e m ih =>
    obtain ⟨a, b⟩ := e
    simp only [ofDict] at ih ⊢
    cases b with
    | str s => simpa using ih
    | _ => simpa using ih.trans (List.sublist_cons_self _ _)

theorem ofDict_proper {m : Dict (MetaVal F)} (hn : (m.map Prod.fst).Nodup) (hk : Kinds m) : ProperMeta (ofDict m) := by
  refine ⟨hn.sublist (ofDict_keys m), fun k hs hm => ?_⟩
  obtain ⟨⟨a, s⟩, h1, rfl⟩ := List.mem_map.1 hm
  exact (hk _ _ (ofDict_mem.1 h1)).1 hs s rfl

theorem ofDict_get? {m : Dict (MetaVal F)} (hn : (m.map Prod.fst).Nodup) {k s : String} :
    Dict.get? (ofDict m).other k = some s ↔ Dict.get? m k = some (.str s) := by
  rw [dict_get?_iff (hn.sublist (ofDict_keys m)), dict_get?_iff hn, ofDict_mem]

/-- The metadata of the result of one operator. -/
theorem merge_other {cmp : MetaVal F → MetaVal F → Bool} (hcmp : ∀ a b, cmp a b = true ↔ a = b)
    (cs : List (Ctx F)) (hp : ∀ c ∈ cs, ProperMeta c) {m : Dict (MetaVal F)}
    (h : mergeMeta cmp (cs.map ctxDict) = .ok m) :
    ProperMeta (ofDict m) ∧ ∀ k s, Dict.get? (ofDict m).other k = some s ↔
      (∃ c ∈ cs, Dict.get? c.other k = some s) ∧ ∀ c ∈ cs, ∀ w, Dict.get? c.other k = some w → w = s := by
  have hn := mergeMeta_nodup h
  obtain ⟨m', hm', hg⟩ := C28_agreed_metadata cmp hcmp (cs.map ctxDict) (by
    intro d hd
    obtain ⟨c, hc, rfl⟩ := List.mem_map.1 hd
    exact ctxDict_nodup (hp c hc))
  rw [h] at hm'
  obtain rfl := Except.ok.inj hm'
  have hkinds : Kinds m := by
    intro k v hkv
    obtain ⟨⟨d, hd, hdv⟩, -⟩ := (hg k v).1 ((dict_get?_iff hn).2 hkv)
    obtain ⟨c, hc, rfl⟩ := List.mem_map.1 hd
    exact ctxDict_kinds (hp c hc) k v (dict_mem_of_get? hdv)
  refine ⟨ofDict_proper hn hkinds, fun k s => ?_⟩
  rw [ofDict_get? hn, hg]
  constructor
  · rintro ⟨⟨d, hd, hdv⟩, hall⟩
    obtain ⟨c, hc, rfl⟩ := List.mem_map.1 hd
    refine ⟨⟨c, hc, (ctxDict_get? (hp c hc)).1 hdv⟩, fun c' hc' w hw => ?_⟩
    have := hall _ (List.mem_map.2 ⟨c', hc', rfl⟩) _ ((ctxDict_get? (hp c' hc')).2 hw)
    cases this; rfl
  · rintro ⟨⟨c, hc, hcs⟩, hall⟩
    refine ⟨⟨_, List.mem_map.2 ⟨c, hc, rfl⟩, (ctxDict_get? (hp c hc)).2 hcs⟩, fun d hd w hw => ?_⟩
    obtain ⟨c', hc', rfl⟩ := List.mem_map.1 hd
    have hnot : k ∉ sizeKeys := fun hk => (hp c hc).2 k hk (List.mem_map.2 ⟨_, dict_mem_of_get? hcs, rfl⟩)
    have hk := ctxDict_kinds (hp c' hc') k w (dict_mem_of_get? hw)
    have : ∃ t, w = .str t := by
      by_contra hno
      exact hnot (hk.2 fun t ht => hno ⟨t, ht⟩)
    obtain ⟨t, rfl⟩ := this
    rw [hall c' hc' t ((ctxDict_get? (hp c' hc')).1 hw)]

/-! ## What an item keeps of the datasets used -/

/-- Grid and metadata of the item come from the datasets with `used`. -/
structure Keep (used : GData F → Prop) (i : Item F) : Prop where
  grid : ∀ G, (∃ d, used d) → (∀ d, used d → d.grid = some G) → i.grid = some G
  bare : (∀ d, ¬ used d) → i.grid = none
  proper : ProperMeta i.ctx
  agreed : ∀ k v, (∃ d, used d ∧ Dict.get? d.ctx.other k = some v) →
    (∀ d, used d → ∀ w, Dict.get? d.ctx.other k = some w → w = v) → Dict.get? i.ctx.other k = some v
  origin : ∀ k v, Dict.get? i.ctx.other k = some v → ∃ d, used d ∧ Dict.get? d.ctx.other k = some v

theorem uses_min (s : Space F) (all : Bool) (k m : Nat) (d : GData F) : ∀ (e : Expr F), e.count ≤ m + 1 →
    (e.Uses s all (min k m) d ↔ e.Uses s all k d)
  | .leaf (.const _ _), _ => Iff.rfl
  | .leaf (.data _ _ _ arrays), h => by
    simp only [Expr.count, Leaf.count] at h
    simp only [Expr.Uses, Leaf.Dataset]
    rw [show min (min k m) (arrays.length - 1) = min k (arrays.length - 1) by omega]
  | .un o e, h => uses_min s all k m d e h
  | .bin o a b, h => by
    simp only [Expr.count] at h
    simp only [Expr.Uses, uses_min s all k m d a (by omega), uses_min s all k m d b (by omega)]

theorem uses_exists [LT F] {lib : Lib F} {s : Space F} {all : Bool} {tags : List Tag} {sh : List Nat} (k : Nat) :
    ∀ (e : Expr F), e.All (Leaf.OK lib s all tags sh) → e.hasData = true → ∃ d, e.Uses s all k d
  | .leaf (.const _ _), _, h => by simp [Expr.hasData] at h
  | .leaf (.data _ _ _ arrays), ho, _ => by
    obtain ⟨-, -, -, hne, vis, hvis, hf⟩ := ho
    have hpos := List.length_pos_iff.2 hne
    have hl := hf.length_eq
    have hk : min k (arrays.length - 1) < vis.length := by omega
    obtain ⟨d, -, -, hd, -⟩ := List.forall₂_iff_get.1 hf |>.2 _ hk (by omega)
    exact ⟨d, vis, _, hvis, List.getElem?_eq_getElem hk, hd⟩
  | .un o e, ho, h => uses_exists k e ho h
  | .bin o a b, ho, h => by
    simp only [Expr.hasData, Bool.or_eq_true] at h
    rcases h with h | h
    · obtain ⟨d, hd⟩ := uses_exists k a ho.1 h; exact ⟨d, .inl hd⟩
    · obtain ⟨d, hd⟩ := uses_exists k b ho.2 h; exact ⟨d, .inr hd⟩

theorem uses_hasData {s : Space F} {all : Bool} {k : Nat} {d : GData F} :
    ∀ (e : Expr F), e.Uses s all k d → e.hasData = true
  | .leaf (.const _ _), h => h.elim
  | .leaf (.data _ _ _ _), _ => rfl
  | .un _ e, h => uses_hasData e h
  | .bin _ a b, h => by
    simp only [Expr.hasData, Bool.or_eq_true]
    exact h.imp (uses_hasData a) (uses_hasData b)

section
variable [LinearOrder F] [Add F] [Sub F] [Mul F] [Div F] [Zero F] [IntCast F]

omit [LinearOrder F] [Zero F] [IntCast F] in
theorem binFunc_grid {fn : Fns F} {o : BinOp} {g0 g1 gr : EvGrid F} {v0 v1 v : EvVal F}
    (h : binFunc fn o [g0, g1] [v0, v1] = .ok (gr, v)) :
    gr = if o = .pow then g1 else EvCmd.getGrid g0 g1 := by
  cases v0 <;> cases v1 <;> cases o <;>
    simp only [binFunc, EvCmd.binary, EvCmd.multLike, EvCmd.power, bind, Except.bind, pure, Except.pure, reduceCtorEq] at h <;>
    first
    | contradiction
    | (split at h <;> simp only [reduceCtorEq, Except.ok.injEq, Prod.mk.injEq] at h; simp [← h.1])

variable {lib : Lib F} {s : Space F} {tags : List Tag} {sh : List Nat} {all : Bool}

/-- Every dataset of the operand keeps what it should. -/
def KeepL (s : Space F) (all : Bool) (e : Expr F) (items : List (Item F)) : Prop :=
  ∀ k i, items[k]? = some i → Keep (fun d => e.Uses s all k d) i

omit [LinearOrder F] [Add F] [Sub F] [Mul F] [Div F] [Zero F] [IntCast F] in
theorem keep_pick {e : Expr F} {items : List (Item F)} (h : KeepL s all e items)
    (hlen : items.length = e.count) {k : Nat} {i : Item F} (h1 : k < items.length → items[k]? = some i)
    (h2 : items.length ≤ k → items.getLast? = some i) : Keep (fun d => e.Uses s all k d) i := by
  have hg : items[min k (items.length - 1)]? = some i := by
    by_cases hk : k < items.length
    · rw [show min k (items.length - 1) = k by omega]; exact h1 hk
    · rw [show min k (items.length - 1) = items.length - 1 by omega, ← List.getLast?_eq_getElem?]
      exact h2 (by omega)
  have := h _ _ hg
  have e' : (fun d => e.Uses s all (min k (items.length - 1)) d) = fun d => e.Uses s all k d := by
    funext d; exact propext (uses_min s all k _ d e (by omega))
  rwa [e'] at this

/-- The run of the machine keeps grid and metadata. -/
theorem run_keep (hcmp : ∀ a b, lib.cmp a b = true ↔ a = b) (hc : Comm lib.fn)
    (hops : ∀ t ∈ opNames, t ∉ tags ∧ lib.pf t = none) :
    ∀ (e : Expr F), e.All (Leaf.OK lib s all tags sh) → e.powOK →
    (∀ k d, e.Uses s all k d → ProperMeta d.ctx) → ∀ st : St F,
    ∃ st' items, e.tokens.foldlM (token lib s tags (!all)) st = .ok st' ∧ st'.stack = items :: st.stack ∧
      items.length = e.count ∧ KeepL s all e items
  | .leaf (.const t x), h, _, _, st => by
    obtain ⟨h1, h2, h3, h4, h5, h6, h7, h8, -⟩ := h
    have hs : (splitOn '[' t).headD [] = t := by rw [splitOn_notMem h6]; rfl
    have a1 : ¬ (t.head? = some 'f' ∨ (splitOn '[' t).headD [] ∈ tags) := by rw [hs]; simp [h3, h4]
    have a2 : ¬ ('(' ∈ t ∨ '[' ∈ t) := by simp [h5, h6]
    have a3 : ¬ (':' ∈ t ∨ ',' ∈ t) := by simp [h7, h8]
    refine ⟨{ st with stack := [⟨none, .arr (NArr.scalar x), {}⟩] :: st.stack }, _, ?_, rfl, rfl, ?_⟩
    · simp only [Expr.tokens, List.foldlM_cons, List.foldlM_nil, token, data, Leaf.text, if_neg a1, if_neg a2,
        if_neg a3, h1, bind, Except.bind, pure, Except.pure]
    · intro k i hi
      have hi' : i = ⟨none, .arr (NArr.scalar x), {}⟩ := by
        have := List.mem_of_getElem? hi
        simpa using this
      subst hi'
      refine ⟨fun G ⟨d, hd⟩ => hd.elim, fun _ => rfl, ⟨by simp, by simp⟩, fun k v ⟨d, hd, _⟩ => hd.elim, fun k v h => ?_⟩
      simp [Dict.get?] at h
  | .leaf (.data name ix comp arrays), h, _, hp, st => by
    obtain ⟨items, nm, h1, h2, -, h4⟩ := data_token (s := s) h
    have hkeep : KeepL s all (.leaf (.data name ix comp arrays)) items := by
      intro k i hi
      obtain ⟨d, hd, hg, hx⟩ := h4 k i hi
      have huniq : ∀ d', (Expr.leaf (.data name ix comp arrays)).Uses s all k d' → d' = d := by
        rintro d' ⟨vis', en', q1, q2, q3⟩
        obtain ⟨vis, en, p1, p2, p3⟩ := hd
        rw [p1] at q1
        obtain rfl := Except.ok.inj q1
        rw [p2] at q2
        obtain rfl := Option.some.inj q2
        rw [p3] at q3
        exact (Option.some.inj q3).symm
      refine ⟨fun G _ hG => by rw [hg]; exact hG d hd, fun hn => absurd hd (hn d), by rw [hx]; exact hp k d hd,
        fun k v ⟨d', hd', hv⟩ _ => by rw [hx, ← huniq d' hd']; exact hv, fun k v hv => ⟨d, hd, by rw [← hx]; exact hv⟩⟩
    by_cases hid : some (nm, ix) ≠ st.id
    · refine ⟨⟨items :: st.stack, st.num + 1, some (nm, ix)⟩, items, ?_, rfl, h2.2.1, hkeep⟩
      simp only [Expr.tokens, List.foldlM_cons, List.foldlM_nil, token, h1, bind, Except.bind, pure, Except.pure,
        if_pos hid]
    · refine ⟨{ st with stack := items :: st.stack }, items, ?_, rfl, h2.2.1, hkeep⟩
      simp only [Expr.tokens, List.foldlM_cons, List.foldlM_nil, token, h1, bind, Except.bind, pure, Except.pure,
        if_neg hid]
  | .un o e, h, hpow, hp, st => by
    obtain ⟨st1, items, h1, h2, h3, h4⟩ := run_keep hcmp hc hops e h hpow hp st
    obtain ⟨st1', items', h1', h2', hden, -⟩ := run_expr hc hops e h hpow st
    rw [h1] at h1'
    obtain rfl := Except.ok.inj h1'
    rw [h2] at h2'
    obtain rfl := (List.cons.inj h2').1
    obtain ⟨r, hr, hd⟩ := command_un o hden st.stack
    refine ⟨{ st1 with stack := r :: st.stack }, r, ?_, rfl, hd.2.1, ?_⟩
    · have hmem : o.text ∈ opNames := by cases o <;> decide
      have hop : OpName lib tags o.text := ⟨(hops _ hmem).1, (hops _ hmem).2, by cases o <;> decide⟩
      rw [Expr.tokens, Space.foldlM_append_ok, h1]
      simp only [List.foldlM_cons, List.foldlM_nil, token, data_op hop, h2, hr, bind, Except.bind, pure, Except.pure]
    · intro k i hi
      obtain ⟨res, hres, -, -, hat⟩ := C27_dataset_by_dataset lib o.text 1 _ (cmds_un lib.fn o) [items] st.stack _ rfl hr
      obtain rfl := (List.cons.inj hres).1
      obtain ⟨hk, -⟩ := List.getElem?_eq_some_iff.1 hi
      obtain ⟨ins, out, q1, q2, q3, m, q4, q5⟩ := hat k hk
      rw [hi] at q1
      obtain rfl := Option.some.inj q1
      obtain ⟨j, rest, ⟨j1, j2⟩, hrest, rfl⟩ := List.forall₂_cons_left_iff.1 q2
      obtain rfl := List.forall₂_nil_left_iff.1 hrest
      have hj := keep_pick h4 h3 j1 j2
      obtain ⟨hm1, hm2⟩ := merge_other hcmp [j.ctx] (by simpa using hj.proper) q4
      have hgrid : i.grid = j.grid := by
        cases hv : j.val <;> simp [EvCmd.unary, hv] at q3
        exact q3.1.symm
      have hget : ∀ k v, Dict.get? i.ctx.other k = some v ↔ Dict.get? j.ctx.other k = some v := by
        intro k v
        rw [q5, hm2]
        simp only [List.mem_singleton, exists_eq_left, forall_eq]
        exact ⟨fun h => h.1, fun h => ⟨h, fun w hw => by rw [h] at hw; exact (Option.some.inj hw).symm⟩⟩
      exact ⟨fun G h1 h2 => by rw [hgrid]; exact hj.grid G h1 h2, fun h => by rw [hgrid]; exact hj.bare h,
        by rw [q5]; exact hm1, fun k v h1 h2 => (hget k v).2 (hj.agreed k v h1 h2),
        fun k v h => hj.origin k v ((hget k v).1 h)⟩
  | .bin o a b, h, hpow, hp, st => by
    obtain ⟨st1, ia, h1, h2, h3, h4⟩ := run_keep hcmp hc hops a h.1 hpow.1 (fun k d hd => hp k d (.inl hd)) st
    obtain ⟨st2, ib, k1, k2, k3, k4⟩ := run_keep hcmp hc hops b h.2 hpow.2.1 (fun k d hd => hp k d (.inr hd)) st1
    obtain ⟨st1', ia', h1', h2', hdena, -⟩ := run_expr hc hops a h.1 hpow.1 st
    rw [h1] at h1'
    obtain rfl := Except.ok.inj h1'
    rw [h2] at h2'
    obtain rfl := (List.cons.inj h2').1
    obtain ⟨st2', ib', k1', k2', hdenb, -⟩ := run_expr hc hops b h.2 hpow.2.1 st1
    rw [k1] at k1'
    obtain rfl := Except.ok.inj k1'
    rw [k2] at k2'
    obtain rfl := (List.cons.inj k2').1
    obtain ⟨r, hr, hd⟩ := command_bin hc o hdena hdenb hpow.2.2 st.stack
    refine ⟨{ st2 with stack := r :: st.stack }, r, ?_, rfl, hd.2.1, ?_⟩
    · have hmem : o.text ∈ opNames := by cases o <;> decide
      have hop : OpName lib tags o.text := ⟨(hops _ hmem).1, (hops _ hmem).2, by cases o <;> decide⟩
      rw [Expr.tokens, Space.foldlM_append_ok, Space.foldlM_append_ok, h1]
      simp only [k1, List.foldlM_cons, List.foldlM_nil, token, data_op hop, k2, h2, hr, bind, Except.bind, pure,
        Except.pure]
    · intro k i hi
      obtain ⟨res, hres, -, -, hat⟩ := C27_dataset_by_dataset lib o.text 2 _ (cmds_bin lib.fn o) [ib, ia] st.stack _ rfl hr
      obtain rfl := (List.cons.inj hres).1
      obtain ⟨hk, -⟩ := List.getElem?_eq_some_iff.1 hi
      obtain ⟨ins, out, q1, q2, q3, m, q4, q5⟩ := hat k hk
      rw [hi] at q1
      obtain rfl := Option.some.inj q1
      obtain ⟨j, rest, ⟨j1, j2⟩, hrest, rfl⟩ := List.forall₂_cons_left_iff.1 q2
      obtain ⟨l, rest', ⟨l1, l2⟩, hrest', rfl⟩ := List.forall₂_cons_left_iff.1 hrest
      obtain rfl := List.forall₂_nil_left_iff.1 hrest'
      have hj := keep_pick k4 k3 j1 j2
      have hl := keep_pick h4 h3 l1 l2
      obtain ⟨hm1, hm2⟩ := merge_other hcmp [j.ctx, l.ctx] (by
        intro c hc
        simp only [List.mem_cons, List.not_mem_nil, or_false] at hc
        rcases hc with rfl | rfl
        · exact hj.proper
        · exact hl.proper) q4
      have hgrid := binFunc_grid (by simpa using q3)
      have hget : ∀ k v, Dict.get? i.ctx.other k = some v ↔
          (Dict.get? j.ctx.other k = some v ∨ Dict.get? l.ctx.other k = some v) ∧
          (∀ w, Dict.get? j.ctx.other k = some w → w = v) ∧ ∀ w, Dict.get? l.ctx.other k = some w → w = v := by
        intro k v
        rw [q5, hm2]
        simp
      have hnone : ∀ x : Option (List (NArr F)), EvCmd.getGrid none x = x ∧ EvCmd.getGrid x none = x := by
        intro x; cases x <;> exact ⟨rfl, rfl⟩
      refine ⟨?_, ?_, by rw [q5]; exact hm1, ?_, ?_⟩
      · intro G hex hG
        have ga := hl.grid G
        have gb := hj.grid G
        by_cases ha : ∃ d, a.Uses s all k d
        · have ga' := ga ha fun d hd => hG d (.inl hd)
          by_cases hb : ∃ d, b.Uses s all k d
          · have gb' := gb hb fun d hd => hG d (.inr hd)
            rw [hgrid, ga', gb']
            split
            · rfl
            · simp [EvCmd.getGrid]
          · have gb' := hj.bare (not_exists.1 hb)
            rw [hgrid, ga', gb']
            split
            · rfl
            · rfl
        · have hb : ∃ d, b.Uses s all k d := by
            obtain ⟨d, hd | hd⟩ := hex
            · exact absurd ⟨d, hd⟩ ha
            · exact ⟨d, hd⟩
          have ga' := hl.bare (not_exists.1 ha)
          have gb' := gb hb fun d hd => hG d (.inr hd)
          rw [hgrid, ga', gb', if_neg]
          · rfl
          · intro ho
            obtain ⟨d, hd⟩ := hb
            exact ha (uses_exists k a h.1 (hpow.2.2 ho (uses_hasData b hd)))
      · intro hno
        have ga' := hl.bare fun d hd => hno d (.inl hd)
        have gb' := hj.bare fun d hd => hno d (.inr hd)
        rw [hgrid, ga', gb']
        split <;> rfl
      · rintro key v ⟨d, hd, hv⟩ hall
        rw [hget]
        refine ⟨?_, fun w hw => ?_, fun w hw => ?_⟩
        · rcases hd with hd | hd
          · exact .inr (hl.agreed key v ⟨d, hd, hv⟩ fun d' hd' => hall d' (.inl hd'))
          · exact .inl (hj.agreed key v ⟨d, hd, hv⟩ fun d' hd' => hall d' (.inr hd'))
        · obtain ⟨d', hd', hw'⟩ := hj.origin key w hw
          exact hall d' (.inr hd') w hw'
        · obtain ⟨d', hd', hw'⟩ := hl.origin key w hw
          exact hall d' (.inl hd') w hw'
      · intro key v hv
        rcases ((hget key v).1 hv).1 with hv | hv
        · obtain ⟨d, hd, hv'⟩ := hj.origin key v hv; exact ⟨d, .inr hd, hv'⟩
        · obtain ⟨d, hd, hv'⟩ := hl.origin key v hv; exact ⟨d, .inl hd, hv'⟩

end
end Ev
end Pgkyl
