import Verif.Props.Cut

/-!
# C83: the boxes that `ExtractBoxes` returns beside an error
-/

namespace Mp4.Props

open Mp4 Mp4.Cut Mp4.Spec

variable {d : Bytes} {n : Nat}

/-- **C83**, agreement — The two descriptions of `ExtractBoxes` are the same: the outcomes agree, and if it succeeds, the boxes do. -/
theorem beside_agrees (m : BoxMap) (fuel : Nat) (parent : Option BoxInfo) (paths : List (List BoxType)) (pos : Nat) :
    (extractBoxes m d fuel parent paths pos).1 =
      match (extractBoxesBeside m d fuel parent paths pos).2 with
      | .ok par => .ok ((extractBoxesBeside m d fuel parent paths pos).1, par)
      | .err e => .err e
      | .panic => .panic
      | .hang => .hang := by
  unfold extractBoxes extractBoxesBeside
  by_cases h0 : paths = []
  · rw [if_pos h0, if_pos h0]
  rw [if_neg h0, if_neg h0]
  split
  · rfl
  cases parent with
  | some bi =>
    simp only
    generalize readBoxStructureFrom m d (extractHandler true paths) fuel bi () ⟨pos, [], []⟩ = x
    obtain ⟨o, st⟩ := x
    cases o <;> rfl
  | none =>
    simp only
    generalize readBoxStructure m d (extractHandler false paths) fuel () ⟨pos, [], []⟩ = x
    obtain ⟨o, st⟩ := x
    cases o <;> rfl

/-- the boxes noted in a traversal from the root -/
theorem beside_root (m : BoxMap) (fuel : Nat) {paths : List (List BoxType)} (h0 : paths ≠ []) (h1 : ∀ q ∈ paths, q ≠ []) (pos : Nat) :
    (extractBoxesBeside m d fuel none paths pos).1 = (readBoxStructure m d (extractHandler false paths) fuel () ⟨pos, [], []⟩).2.user := by
  unfold extractBoxesBeside
  rw [if_neg h0, if_neg (by
    rw [List.any_eq_true]
    rintro ⟨q, hq, h⟩
    exact h1 q hq (List.length_eq_zero_iff.1 (by simpa using h)))]
  simp only
  generalize readBoxStructure m d (extractHandler false paths) fuel () ⟨pos, [], []⟩ = x
  obtain ⟨o, st⟩ := x
  cases o <;> rfl

/-- no boxes if there is no path, or an empty one -/
theorem beside_none (m : BoxMap) (fuel : Nat) (parent : Option BoxInfo) {paths : List (List BoxType)} (h : ¬ (paths ≠ [] ∧ ∀ q ∈ paths, q ≠ [])) (pos : Nat) :
    (extractBoxesBeside m d fuel parent paths pos).1 = [] := by
  unfold extractBoxesBeside
  by_cases h0 : paths = []
  · rw [if_pos h0]
  · rw [if_neg h0, if_pos]
    rw [List.any_eq_true]
    false_or_by_contra
    next hc =>
    refine h ⟨h0, fun q hq he => hc ⟨q, hq, by simp [he]⟩⟩

theorem collected_root (d : Bytes) (fuel : Nat) (paths : List (List BoxType)) (pos : Nat) :
    Collected false paths (readBoxStructure BoxMap.std d (extractHandler false paths) fuel () ⟨pos, [], []⟩).2 := by
  unfold readBoxStructure
  exact gathers_bind (gathers_liftP _) (fun _ => gathers_readStructure _ _ _ _ _ _ _ (by simp)) ⟨pos, [], []⟩ ⟨rfl, by simp⟩

/-- **C83**, nothing is made up — On any file, and whatever the outcome, every box that `ExtractBoxes` returns stands in the file where it says:
one gets to it from the root through boxes of the types of a path asked for. -/
theorem beside_sound (hd : d.length ≤ 2 ^ 48) (fuel : Nat) (paths : List (List BoxType)) (pos : Nat) :
    ∀ b ∈ (extractBoxesBeside BoxMap.std d fuel none paths pos).1, ∃ path, Leads d none path b ∧ Asked paths path := by
  intro b hb
  by_cases h : paths ≠ [] ∧ ∀ q ∈ paths, q ≠ []
  · rw [beside_root _ _ h.1 h.2] at hb
    have hC := collected_root d fuel paths pos
    have hT := traverse_tr hd (extractHandler false paths) fuel () [] pos
    have hF := traverse_facts hd (extractHandler false paths) fuel () [] pos
    unfold traverse at hT hF
    rw [hC.1] at hb
    obtain ⟨par, path, hev, ht, hm⟩ := mem_pick hb
    obtain ⟨rest, hr1, hr2⟩ := tr_reached (start := none) (base := []) hT hF .root (.inl ⟨rfl, rfl⟩) par path b hev
    rw [List.nil_append] at hr1
    subst hr1
    exact ⟨path, hr2, (matchPath_iff (clean_path (hC.2 _ hev) (hF _ hev).2.1 ht)).2.1 hm⟩
  · rw [beside_none _ _ _ h] at hb
    cases hb

/-- **C83**, part of a file — Only the first `n` bytes of a file are there, and no box of the part says that it goes on to the end of the file.  The
boxes that `ExtractBoxes` returns for the part, with or without an error, are the first of those that it returns for the whole file, with or
without an error. -/
theorem beside_part (hn : n ≤ d.length) (hd : d.length ≤ 2 ^ 48) (fuel : Nat) (paths : List (List BoxType)) (pos : Nat)
    (ho : NoneOpen (extractCalls (d.take n) fuel paths)) :
    (extractBoxesBeside BoxMap.std (d.take n) fuel none paths pos).1 <+: (extractBoxesBeside BoxMap.std d fuel none paths pos).1 := by
  by_cases h : paths ≠ [] ∧ ∀ q ∈ paths, q ≠ []
  · rw [beside_root _ _ h.1 h.2, beside_root _ _ h.1 h.2]
    have hp := (part_reads hn hd (h := extractHandler false paths) (Src.extractHandler_passes false paths) fuel () [] pos ho).1
    have c1 := (collected_root (d.take n) fuel paths pos).1
    have c2 := (collected_root d fuel paths pos).1
    rw [pick_enters] at c1 c2
    unfold traverse at hp
    rw [c1, c2]
    obtain ⟨t, ht⟩ := hp
    rw [← ht, List.filterMap_append]
    exact List.prefix_append _ _
  · rw [beside_none _ _ _ h]
    exact List.nil_prefix

/-- **C83**, nothing that is there is missed — In a well-formed file (as in C20; no box that goes on to the end of the file, nothing in `ftyp` and `keys`
but their fields, no leaf on the way to what is asked for) every box asked for that lies in the first `n` bytes as a whole is among the boxes that
`ExtractBoxes` returns for these bytes, whether it returns an error or not, and the boxes returned are the first of all those asked for. -/
theorem beside_complete (hn : n ≤ d.length) (hd : d.length ≤ 2 ^ 48) (F : Forest) (hwf : F.WF d true [] {} 0 0) (hp : F.Plain [])
    (paths : List (List BoxType)) (hne : ∀ q ∈ paths, q ≠ []) (hleaf : ∀ x ∈ leaves [] F, ¬ AskedBelow paths x.1) (fuel : Nat) (hf : F.count < fuel)
    (pos : Nat) (ho : NoneOpen (extractCalls (d.take n) fuel paths)) :
    (extractBoxesBeside BoxMap.std (d.take n) fuel none paths pos).1 <+: askedBoxes paths F ∧
    ∀ b ∈ askedBoxes paths F, b.offset + b.size ≤ n → b ∈ (extractBoxesBeside BoxMap.std (d.take n) fuel none paths pos).1 := by
  have hx := extract_exact_partial hd F hwf paths hne hleaf fuel hf pos
  have hw : (extractBoxesBeside BoxMap.std d fuel none paths pos).1 = askedBoxes paths F := by
    rw [beside_agrees] at hx
    generalize extractBoxesBeside BoxMap.std d fuel none paths pos = x at hx ⊢
    obtain ⟨l, o⟩ := x
    cases o <;> simp only [reduceCtorEq, Out.ok.injEq, Prod.mk.injEq] at hx
    exact hx.1
  refine ⟨hw ▸ beside_part hn hd fuel paths pos ho, fun b hb hin => ?_⟩
  by_cases h0 : paths = []
  · rw [← hw, beside_none _ _ _ (by simp [h0])] at hb
    cases hb
  rw [← hw, beside_root _ _ h0 hne, (collected_root d fuel paths pos).1, pick_enters] at hb
  rw [beside_root _ _ h0 hne, (collected_root (d.take n) fuel paths pos).1, pick_enters]
  obtain ⟨x, hx1, hx2⟩ := List.mem_filterMap.1 hb
  refine List.mem_filterMap.2 ⟨x, ?_, hx2⟩
  have hxb : x.2.2 = b := by
    by_cases hc : x.2.2.type ≠ BoxType.any ∧ (matchPath paths (if false then x.2.1.drop 1 else x.2.1)).2 = true
    · have e : noted false paths x = some x.2.2 := if_pos hc
      rw [e] at hx2
      exact Option.some.inj hx2
    · have e : noted false paths x = none := if_neg hc
      rw [e] at hx2
      cases hx2
  have hrel : ∀ r, relPath false ([] ++ r) = [] ++ r := fun r => rfl
  have hs := part_sees (S := List BoxInfo) (V := Unit) hn hd F hwf hp (noteAsked false paths) (wantAsked false paths)
    (fun _ => ()) (fun _ _ => ()) () [] pos (expandable_asked false paths F [] [] hrel (by simp) hleaf) fuel hf
  have he : ∀ d : Bytes, readBoxStructure BoxMap.std d (extractHandler false paths) fuel () =
      readBoxStructure BoxMap.std d (walker (noteAsked false paths) (wantAsked false paths) (fun _ => ()) (fun _ _ => ())) fuel () := by
    intro d
    unfold readBoxStructure
    simp only [readStructure_congr (extractHandler_eq false paths)]
  rw [he] at hx1 ⊢
  exact hs x hx1 (hxb ▸ hin)

/-! ## Below a box -/

theorem beside_from (m : BoxMap) (fuel : Nat) (bi : BoxInfo) {paths : List (List BoxType)} (h0 : paths ≠ []) (h1 : ∀ q ∈ paths, q ≠ []) (pos : Nat) :
    (extractBoxesBeside m d fuel (some bi) paths pos).1 = (readBoxStructureFrom m d (extractHandler true paths) fuel bi () ⟨pos, [], []⟩).2.user := by
  unfold extractBoxesBeside
  rw [if_neg h0, if_neg (by
    rw [List.any_eq_true]
    rintro ⟨q, hq, h⟩
    exact h1 q hq (List.length_eq_zero_iff.1 (by simpa using h)))]
  simp only
  generalize readBoxStructureFrom m d (extractHandler true paths) fuel bi () ⟨pos, [], []⟩ = x
  obtain ⟨o, st⟩ := x
  cases o <;> rfl

theorem collected_from (d : Bytes) (fuel : Nat) (bi : BoxInfo) (paths : List (List BoxType)) (pos : Nat) :
    Collected true paths (readBoxStructureFrom BoxMap.std d (extractHandler true paths) fuel bi () ⟨pos, [], []⟩).2 := by
  unfold readBoxStructureFrom
  exact gathers_fromInternal (fun _ _ _ _ _ h => gathers_readStructure _ _ _ _ _ _ _ h) none bi [] (by simp) () _ ⟨rfl, by simp⟩

/-- **C83**, nothing is made up, below a box -/
theorem beside_below_sound (hd : d.length ≤ 2 ^ 48) (fuel : Nat) (bi : BoxInfo) (hbi : Real d bi) (paths : List (List BoxType)) (pos : Nat) :
    ∀ b ∈ (extractBoxesBeside BoxMap.std d fuel (some bi) paths pos).1, ∃ path, Leads d (some bi) path b ∧ Asked paths path := by
  intro b hb
  by_cases h : paths ≠ [] ∧ ∀ q ∈ paths, q ≠ []
  · rw [beside_from _ _ _ h.1 h.2] at hb
    have hC := collected_from d fuel bi paths pos
    have hT := fromInternal_tr (show d.length ≤ maxAlloc from hd) (extractHandler true paths) (f := fuel)
      (rec := fun par total path ctx p => readStructure BoxMap.std d (extractHandler true paths) fuel (some par) total false path ctx p)
      (fun par total path ctx p st _ => readStructure_tr (show d.length ≤ maxAlloc from hd) _ fuel (some par) total false path ctx p st)
      none (header_of_real hd hbi) [] () ⟨pos, [], []⟩
    have hx : fromInternal BoxMap.std d (extractHandler true paths)
        (fun par total path ctx p => readStructure BoxMap.std d (extractHandler true paths) fuel (some par) total false path ctx p)
        none bi [] () ⟨pos, [], []⟩ = readBoxStructureFrom BoxMap.std d (extractHandler true paths) fuel bi () ⟨pos, [], []⟩ := rfl
    rw [hx] at hT
    rw [hC.1] at hb
    obtain ⟨par, path, hev, ht, hm⟩ := mem_pick hb
    have hcl := hC.2 _ hev
    have key : ∀ bi' L (o : Out (List Unit)), SameBox bi bi' → HeaderAt d bi' → Tr d (.body fuel ([] ++ [bi'.type]) bi') L o →
        (.enter par path b = (.enter none ([] ++ [bi'.type]) bi' : Ev Unit) ∨ .enter par path b ∈ L) → ∃ path, Leads d (some bi) path b ∧ Asked paths path := by
      intro bi' L o s hb' hT hev
      have hF : ∀ ev ∈ L, EvFact d ev := tr_facts (show d.length ≤ maxAlloc from hd) hT (by simp) hb'
      have hR := tr_reached (start := some bi') (base := [bi'.type]) hT hF (.inl ⟨rfl, rfl⟩)
      simp only [if_pos] at hm
      rcases hev with hev | hev
      · cases hev
        exfalso
        have h0 := (matchPath_iff (paths := paths) (path := []) (by simp)).2.1 hm
        obtain ⟨-, q, hq1, hq2⟩ := h0
        cases q with
        | nil => exact h.2 _ hq1 rfl
        | cons a l => cases hq2
      · obtain ⟨rest, rfl, hl⟩ := hR par path b hev
        have hall := clean_path hcl (hF _ hev).2.1 ht
        refine ⟨rest, leads_same s hl, (matchPath_iff (fun t h => hall t (by simp [h]))).2.1 ?_⟩
        simpa using hm
    generalize readBoxStructureFrom BoxMap.std d (extractHandler true paths) fuel bi () ⟨pos, [], []⟩ = x at hT hev
    obtain ⟨o, st⟩ := x
    cases o with
    | panic => exact hT.elim
    | ok v =>
      obtain ⟨v, bi'⟩ := v
      obtain ⟨s, hb', -, -, L, hL, hT⟩ := hT
      rw [hL] at hev
      simp only [List.nil_append, List.mem_cons, List.mem_append, reduceCtorEq, List.not_mem_nil, or_false] at hev
      exact key bi' L _ s hb' hT hev
    | err e =>
      rcases hT with ⟨hL, -⟩ | ⟨bi', s, hb', -, L, r, hL, hT⟩
      · rw [hL] at hev; cases hev
      · rw [hL] at hev
        simp only [List.nil_append, List.mem_cons, List.mem_append, reduceCtorEq, List.not_mem_nil, or_false] at hev
        rcases hT with ⟨-, hT⟩ | ⟨v, -, hT, -⟩
        · exact key bi' L _ s hb' hT hev
        · exact key bi' L _ s hb' hT hev
    | hang =>
      obtain ⟨bi', s, hb', -, L, hL, hT⟩ := hT
      rw [hL] at hev
      simp only [List.nil_append, List.mem_cons] at hev
      exact key bi' L _ s hb' hT hev
  · rw [beside_none _ _ _ h] at hb
    cases hb

/-- **C83**, part of a file, below a box whose header is in the part -/
theorem beside_below_part (hn : n ≤ d.length) (hd : d.length ≤ 2 ^ 48) (fuel : Nat) {bi : BoxInfo} (hb : bi.offset + bi.headerSize ≤ n)
    (paths : List (List BoxType)) (pos : Nat)
    (ho : NoneOpen (readBoxStructureFrom BoxMap.std (d.take n) (extractHandler true paths) fuel bi () ⟨pos, [], []⟩).2.log) :
    (extractBoxesBeside BoxMap.std (d.take n) fuel (some bi) paths pos).1 <+: (extractBoxesBeside BoxMap.std d fuel (some bi) paths pos).1 := by
  by_cases h : paths ≠ [] ∧ ∀ q ∈ paths, q ≠ []
  · rw [beside_from _ _ _ h.1 h.2, beside_from _ _ _ h.1 h.2]
    have hf := (fromInternal_cut hn hd (Src.extractHandler_passes true paths)
      (rs := fun par total path ctx p => readStructure BoxMap.std (d.take n) (extractHandler true paths) fuel (some par) total false path ctx p)
      (rl := fun par total path ctx p => readStructure BoxMap.std d (extractHandler true paths) fuel (some par) total false path ctx p)
      (fun _ _ _ _ _ => readStructure_cut hn hd (Src.extractHandler_passes true paths) fuel _ _ _ _ _) none hb [] ()).rel ⟨pos, [], []⟩
    have c1 := (collected_from (d.take n) fuel bi paths pos).1
    have c2 := (collected_from d fuel bi paths pos).1
    rw [pick_enters] at c1 c2
    rw [c1, c2]
    unfold readBoxStructureFrom at ho ⊢
    rcases hf with hf | hf | ⟨-, t, ht⟩
    · exact absurd hf ho.not
    · rw [hf]; exact List.prefix_refl _
    · rw [← ht, List.filterMap_append]
      exact List.prefix_append _ _
  · rw [beside_none _ _ _ h]
    exact List.nil_prefix

theorem mem_foldl_note (below : Bool) (paths : List (List BoxType)) {b : BoxInfo} : ∀ (l : List (Option BoxInfo × Handle Unit)) (s : List BoxInfo),
    b ∈ l.foldl (fun s x => noteAsked below paths x.2 s) s → b ∈ s ∨ ∃ x ∈ l, noted below paths (x.1, x.2.path, x.2.info) = some b
  | [], s, h => .inl h
  | x :: l, s, h => by
    rcases mem_foldl_note below paths l _ h with h | ⟨y, hy, e⟩
    · simp only at h
      by_cases hc : x.2.info.type ≠ BoxType.any ∧ (matchPath paths (relPath below x.2.path)).2 = true
      · have e : noteAsked below paths x.2 s = s ++ [x.2.info] := if_pos hc
        rw [e] at h
        rcases List.mem_append.1 h with h | h
        · exact .inl h
        · rw [List.mem_singleton.1 h]
          exact .inr ⟨x, List.mem_cons_self, if_pos hc⟩
      · have e : noteAsked below paths x.2 s = s := if_neg hc
        rw [e] at h
        exact .inl h
    · exact .inr ⟨y, List.mem_cons_of_mem _ hy, e⟩

theorem plain_path : ∀ {F : Forest} {path path' : List BoxType}, path ≠ [] → path' ≠ [] → F.Plain path → F.Plain path'
  | .nil, _, _, _, _, _ => trivial
  | .leaf _ _, _, _, h1, h2, ⟨ho, hr⟩ => ⟨ho, plain_path h1 h2 hr⟩
  | .node _ _ _ _, _, _, h1, h2, ⟨ho, hn, hk, hr⟩ =>
    ⟨ho, fun h => hn (h.imp_left fun h => absurd h.1 h2), plain_path (by simp) (by simp) hk, plain_path h1 h2 hr⟩

/-- **C83**, nothing that is there is missed, below a box — Given a box of a well-formed file as parent, every box asked for inside it that lies in the
first `n` bytes as a whole is among the boxes returned for these bytes, with or without an error. -/
theorem beside_below_complete (hn : n ≤ d.length) (hd : d.length ≤ 2 ^ 48) (bi : BoxInfo) (m : Nat) (kids rest : Forest) (isRoot : Bool)
    (path : List BoxType) (ctx : Ctx) (at_ total : Nat) (hwf : (Forest.node bi m kids rest).WF d isRoot path ctx at_ total)
    (hpl : (Forest.node bi m kids rest).Plain path) (h1 : bi.type ≠ tFtyp) (h2 : bi.type ≠ tKeys) (h3 : bi.type ≠ ⟨0, 0, 0, 0⟩)
    (paths : List (List BoxType)) (hne : ∀ q ∈ paths, q ≠ []) (hleaf : ∀ x ∈ leaves [] kids, ¬ AskedBelow paths x.1) (fuel : Nat)
    (hf : kids.count < fuel) (pos : Nat) :
    ∀ b ∈ askedBoxes paths kids, b.offset + b.size ≤ n → b ∈ (extractBoxesBeside BoxMap.std (d.take n) fuel (some bi) paths pos).1 := by
  intro b hb hin
  have hl : (d.take n).length ≤ maxAlloc := by rw [List.length_take]; simp only [maxAlloc]; omega
  by_cases h0 : paths = []
  · subst h0
    exfalso
    unfold askedBoxes at hb
    rw [none_asked (by rintro ⟨-, a, b, h, -⟩; cases h)] at hb
    cases hb
  rw [beside_from _ _ _ h0 hne, (collected_from (d.take n) fuel bi paths pos).1, pick_enters]
  obtain ⟨hp, hm, hk, -⟩ := hwf
  obtain ⟨ho, -, hpk, -⟩ := hpl
  have hrel : ∀ r, relPath true ([bi.type] ++ r) = [] ++ r := fun r => rfl
  have hex := expandable_asked true paths kids [bi.type] [] hrel (by simp) hleaf
  have hb' : b ∈ (kids.visited (wantAsked true paths) (fun _ => ()) (some bi) [bi.type] ()).foldl (fun s x => noteAsked true paths x.2 s) [] := by
    rw [collected true paths kids (some bi) none [bi.type] [] _ hrel (by simp)]
    exact hb
  rcases mem_foldl_note true paths _ _ hb' with h | ⟨x, hx, e⟩
  · cases h
  refine List.mem_filterMap.2 ⟨_, ?_, e⟩
  have hxb : x.2.info = b := by
    by_cases hc : x.2.info.type ≠ BoxType.any ∧ (matchPath paths (if true then x.2.path.drop 1 else x.2.path)).2 = true
    · have e' : noted true paths (x.1, x.2.path, x.2.info) = some x.2.info := if_pos hc
      rw [e'] at e
      exact Option.some.inj e
    · have e' : noted true paths (x.1, x.2.path, x.2.info) = none := if_neg hc
      rw [e'] at e
      cases e
  have hk' : kids.WF d false [bi.type] (childCtx bi) (bi.offset + bi.headerSize + m) (bi.size - bi.headerSize - m) := by
    rw [hp.offset]
    exact wf_path (by simp) (by simp) hk
  have hlater := visited_later hd (wantAsked true paths) (fun _ => ()) kids _ _ _ _ _ _ _ hk' x hx
  have hin2 : x.2.info.offset + x.2.info.size ≤ n := hxb ▸ hin
  have hfl := placed_fields hd hp hm
  obtain ⟨-, hdr⟩ := placed_header hd hp
  have htot : sub64 (add64 bi.offset bi.size) (bi.offset + bi.headerSize + m) = bi.size - bi.headerSize - m := by
    have := hp.inFile
    have := hp.offset
    unfold sub64 add64
    simp only [U64] at *
    omega
  have hw : wantAsked true paths ⟨(), bi, [] ++ [bi.type]⟩ = true := by
    obtain ⟨q, hq⟩ := List.exists_mem_of_ne_nil _ h0
    unfold wantAsked
    have : AskedBelow paths [] := ⟨by simp, [], q, hq, hne q hq, rfl⟩
    rw [Bool.and_eq_true, decide_eq_true_eq]
    exact ⟨h3, (matchPath_iff (path := []) (by simp)).1.2 this⟩
  have hseen := row_seen (S := List BoxInfo) (V := Unit) hn hd (noteAsked true paths) (wantAsked true paths) (fun _ => ()) (fun _ _ => ()) kids fuel (some bi)
    (sub64 (add64 bi.offset bi.size) (bi.offset + bi.headerSize + m)) false [bi.type] (childCtx bi) ()
    ⟨bi.offset + bi.headerSize + m, noteAsked true paths ⟨(), bi, [] ++ [bi.type]⟩ [],
      (entered (V := Unit) ⟨pos, ([] : List BoxInfo), []⟩ none ([] ++ [bi.type]) bi).log ++ [.openBox ([] ++ [bi.type]) bi (bi.offset + bi.headerSize + m)]⟩
    (by rw [htot]; exact hk') (plain_path (by simp) (by simp) hpk) hex hf (by unfold sub64; exact Nat.mod_lt _ (by decide)) x hx (hxb ▸ hin)
  have hin' : bi.offset + bi.headerSize ≤ (d.take n).length := by
    rw [List.length_take]
    omega
  obtain ⟨L, hL⟩ := expand_grows hl (note := noteAsked true paths) (want := wantAsked true paths) (sub := fun _ => ()) (val := fun _ _ => ())
    (path := [] ++ [bi.type]) (bi := bi)
    (children := fun co p => readStructure BoxMap.std (d.take n)
      (walker (noteAsked true paths) (wantAsked true paths) (fun _ => ()) (fun _ _ => ())) fuel (some bi)
      (sub64 (add64 bi.offset bi.size) co) false ([] ++ [bi.type]) (childCtx bi) p)
    hin' (payload_back hn hd hm (by omega) (by omega)) hw (entered (V := Unit) ⟨pos, ([] : List BoxInfo), []⟩ none ([] ++ [bi.type]) bi)
  generalize hrun : runProg BoxMap.std (d.take n) ([] ++ [bi.type]) bi _ _ 0 _ = r at hL
  obtain ⟨o, st⟩ := r
  have hfr := fromInternal_run
    (h := walker (noteAsked true paths) (wantAsked true paths) (fun _ => ()) (fun _ _ => ()))
    (rec := fun par total path ctx p => readStructure BoxMap.std (d.take n)
      (walker (noteAsked true paths) (wantAsked true paths) (fun _ => ()) (fun _ _ => ())) fuel (some par) total false path ctx p)
    hl (parent := none) (p := ()) (st := ⟨pos, [], []⟩) (bi := bi) hin'
    (checkFtyp_skip (.inr h1) _) (checkKeys_skip h2 _) rfl hrun
  have he : readBoxStructureFrom BoxMap.std (d.take n) (extractHandler true paths) fuel bi () =
      readBoxStructureFrom BoxMap.std (d.take n)
        (walker (noteAsked true paths) (wantAsked true paths) (fun _ => ()) (fun _ _ => ())) fuel bi () := by
    unfold readBoxStructureFrom
    apply fromInternal_congr (extractHandler_eq true paths)
    funext par total path ctx p
    exact readStructure_congr (extractHandler_eq true paths) _ _ _ _ _ _ _
  rw [he]
  unfold readBoxStructureFrom
  rw [hfr]
  simp only at hL
  have hy : (x.1, x.2.path, x.2.info) ∈ enters st.log := by
    rw [hL, enters_append]
    exact List.mem_append.2 (.inl hseen)
  cases o with
  | ok v =>
    simp only
    split
    · rw [enters_append]; exact List.mem_append.2 (.inl hy)
    · rw [enters_append]; exact List.mem_append.2 (.inl hy)
  | err e => rw [enters_append]; exact List.mem_append.2 (.inl hy)
  | panic => exact hy
  | hang => exact hy

/-! ## Concrete files -/

/-- The initialization segment of C78, cut inside its second `moov` child: beside the error, the first child and the box before are there. -/
example : let r := fun d => extractBoxesBeside BoxMap.std d 20 none [[⟨0, 0, 0, 0⟩], [Mp4.tMoov, ⟨0, 0, 0, 0⟩]] 0
    (r ((initBoxes.ser true {}).take 140)).1.map (fun b => (b.offset, b.size)) = [(0, 20), (20, 127), (28, 108)] ∧
    (r ((initBoxes.ser true {}).take 140)).2 = .err .eof ∧
    (r (initBoxes.ser true {})).1.map (fun b => (b.offset, b.size)) = [(0, 20), (20, 127), (28, 108), (136, 11)] := by decide +kernel

/-- The same below `moov`. -/
example : let r := extractBoxesBeside BoxMap.std ((initBoxes.ser true {}).take 140) 20 (some ⟨20, 127, 8, Mp4.tMoov, false, {}⟩) [[⟨0, 0, 0, 0⟩]] 0
    r.1.map (fun b => (b.offset, b.size)) = [(28, 108)] ∧ (match r.2 with | .err .eof => true | _ => false) = true := by decide +kernel

end Mp4.Props
