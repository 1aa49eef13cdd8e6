import Verif.Lemmas.Found
import Verif.Lemmas.Extract

/-!
# C56: extraction from arbitrary files
-/

namespace Mp4.Props

open Mp4

variable {d : Bytes} {V : Type}

/-- The header of `bi` stands at its offset in the file (ISO/IEC 14496-12 §4.2). -/
def Real (d : Bytes) (bi : BoxInfo) : Prop := isoHeader (d.drop bi.offset) = .box bi.size bi.headerSize bi.type bi.extendToEOF

theorem header_of_real (hd : d.length ≤ 2 ^ 48) {bi : BoxInfo} (h : Real d bi) : HeaderAt d bi := by
  unfold Real at h
  rcases readBoxInfo_post (show d.length ≤ maxAlloc from hd) bi.offset with ⟨b, -, h2, h3, h4, h5, h6, -, h8⟩ | ⟨_, _, -, h2⟩
  · rw [h] at h8
    injection h8 with e1 e2 e3 e4
    exact ⟨e2 ▸ h3, e2 ▸ h4, e1 ▸ h5, e1 ▸ h6, h⟩
  · exact absurd h (h2 _ _ _ _)

/-- Among the children of `parent` (at the root, if there is none) a box is looked for at this position: the first one at the beginning of the
file or behind the fields of the parent, every further one right behind another. -/
inductive At (d : Bytes) : Option BoxInfo → Nat → Prop where
  | root : At d none 0
  | first {p : BoxInfo} {ctx : Ctx} {box : BoxVal} {n q : Nat} (h : BoxMap.std.unmarshalAny d p.type (sub64 p.size p.headerSize) ctx (p.offset + p.headerSize) =
      (.ok (box, n), q)) : At d (some p) (p.offset + p.headerSize + n)
  | next {parent : Option BoxInfo} {b : BoxInfo} (h : At d parent b.offset) (hb : Real d b) : At d parent ((b.offset + b.size) % 2 ^ 64)

/-- `c` is a child of `parent` (a box at the root, if there is none); it is inside its parent, if the size of the parent is a possible one. -/
structure Child (d : Bytes) (parent : Option BoxInfo) (c : BoxInfo) : Prop where
  real : Real d c
  place : At d parent c.offset
  inside : ∀ p, parent = some p → Regular p → Inside p c

/-- From `start` (the root, if there is none) one gets to the box `b` by going down through boxes of the types of the path. -/
inductive Leads (d : Bytes) (start : Option BoxInfo) : List BoxType → BoxInfo → Prop where
  | first {c : BoxInfo} (hc : Child d start c) : Leads d start [c.type] c
  | down {path : List BoxType} {p c : BoxInfo} (h : Leads d start path p) (hc : Child d (some p) c) : Leads d start (path ++ [c.type]) c

theorem real_of_header {bi : BoxInfo} (h : HeaderAt d bi) : Real d bi := h.iso

/-- the path leads to the box -/
def PathTo (d : Bytes) (start : Option BoxInfo) (base path : List BoxType) (bi : BoxInfo) : Prop :=
  ∃ rest, path = base ++ rest ∧ Leads d start rest bi

/-- the box itself, or one below -/
def From (d : Bytes) (start : Option BoxInfo) (base path : List BoxType) (bi : Option BoxInfo) : Prop :=
  (bi = start ∧ path = base) ∨ ∃ p, bi = some p ∧ PathTo d start base path p

theorem from_down {start parent : Option BoxInfo} {base path : List BoxType} {c : BoxInfo} (h : From d start base path parent)
    (hc : Child d parent c) : PathTo d start base (path ++ [c.type]) c := by
  rcases h with ⟨rfl, rfl⟩ | ⟨p, rfl, rest, rfl, hl⟩
  · exact ⟨[c.type], rfl, .first hc⟩
  · exact ⟨rest ++ [c.type], by simp, .down hl hc⟩

/-- the paths of visited boxes lead to them -/
theorem tr_reached {start : Option BoxInfo} {base : List BoxType} {r : Run} {L : List (Ev V)} {o : Out (List V)} (h : Tr d r L o) :
    (∀ ev ∈ L, EvFact d ev) →
    match r with
    | .row _ parent _ _ path _ pos => At d parent pos → From d start base path parent →
        ∀ par q bi, .enter par q bi ∈ L → PathTo d start base q bi
    | .body _ path bi => From d start base path (some bi) → ∀ par q bi, .enter par q bi ∈ L → PathTo d start base q bi := by
  have hin : ∀ {parent : Option BoxInfo} {total : Nat} {isRoot : Bool} {path : List BoxType} {ctx : Ctx} {pos : Nat} {bi : BoxInfo},
      BoxAt d total isRoot path ctx pos bi → EvFact d (.enter parent (path ++ [bi.type]) bi : Ev V) → At d parent pos →
      From d start base path parent → PathTo d start base (path ++ [bi.type]) bi := by
    intro parent total isRoot path ctx pos bi hb hf ha hp
    exact from_down hp ⟨real_of_header hf.1, hb.offset ▸ ha, hf.2.2.2⟩
  induction h with
  | fuel => intro _ _ _ _ _ _ h; cases h
  | over => intro _ _ _ _ _ _ h; cases h
  | ret => intro _ _ _ _ _ h; cases h
  | fail => intro _ _ _ _ _ h; cases h
  | hang => intro _ _ _ _ _ h; cases h
  | stop hb h ih =>
    intro hf ha hp par q bi hm
    have h0 := hin hb (hf _ List.mem_cons_self) ha hp
    simp only [List.mem_cons, List.mem_append, List.not_mem_nil, or_false, reduceCtorEq] at hm
    rcases hm with hm | hm
    · cases hm; exact h0
    · exact ih (fun ev he => hf ev (by simp [he])) (.inr ⟨_, rfl, h0⟩) _ _ _ hm
  | cut hb h ih =>
    intro hf ha hp par q bi hm
    have h0 := hin hb (hf _ List.mem_cons_self) ha hp
    simp only [List.mem_cons] at hm
    rcases hm with hm | hm
    · cases hm; exact h0
    · exact ih (fun ev he => hf ev (by simp [he])) (.inr ⟨_, rfl, h0⟩) _ _ _ hm
  | noEnd hb h hneg ih =>
    intro hf ha hp par q bi hm
    have h0 := hin hb (hf _ List.mem_cons_self) ha hp
    simp only [List.mem_cons, List.mem_append, List.not_mem_nil, or_false, reduceCtorEq] at hm
    rcases hm with hm | hm
    · cases hm; exact h0
    · exact ih (fun ev he => hf ev (by simp [he])) (.inr ⟨_, rfl, h0⟩) _ _ _ hm
  | next hb h h' ih ih' =>
    intro hf ha hp par q bi hm
    have h0 := hin hb (hf _ List.mem_cons_self) ha hp
    simp only [List.mem_cons, List.mem_append, reduceCtorEq, false_or] at hm
    rcases hm with hm | hm | hm
    · cases hm; exact h0
    · exact ih (fun ev he => hf ev (by simp [he])) (.inr ⟨_, rfl, h0⟩) _ _ _ hm
    · exact ih' (fun ev he => hf ev (by simp [he])) (.next (hb.offset ▸ ha) (real_of_header hb.hdr)) hp _ _ _ hm
  | expand hn h h' ih ih' =>
    intro hf hp par q bi hm
    simp only [List.mem_cons, List.mem_append, reduceCtorEq, false_or] at hm
    obtain ⟨box, q', hu⟩ := hn
    rcases hm with hm | hm
    · exact ih (fun ev he => hf ev (by simp [he])) (.first hu) hp _ _ _ hm
    · exact ih' (fun ev he => hf ev (by simp [he])) hp _ _ _ hm
  | expandErr hn h h' ih ih' =>
    intro hf hp par q bi hm
    simp only [List.mem_cons, List.mem_append, reduceCtorEq, false_or] at hm
    obtain ⟨box, q', hu⟩ := hn
    rcases hm with hm | hm
    · exact ih (fun ev he => hf ev (by simp [he])) (.first hu) hp _ _ _ hm
    · exact ih' (fun ev he => hf ev (by simp [he])) hp _ _ _ hm
  | expandCut hn h ih =>
    intro hf hp par q bi hm
    simp only [List.mem_cons, reduceCtorEq, false_or] at hm
    obtain ⟨box, q', hu⟩ := hn
    exact ih (fun ev he => hf ev (by simp [he])) (.first hu) hp _ _ _ hm

theorem mem_pick {below : Bool} {paths : List (List BoxType)} {L : List (Ev Unit)} {b : BoxInfo}
    (h : b ∈ L.filterMap (pick below paths)) : ∃ par path, .enter par path b ∈ L ∧ b.type ≠ BoxType.any ∧
      (matchPath paths (if below then path.drop 1 else path)).2 = true := by
  obtain ⟨ev, hev, hp⟩ := List.mem_filterMap.1 h
  cases ev with
  | enter par path bi =>
    simp only [pick] at hp
    by_cases hc : bi.type ≠ BoxType.any ∧ (matchPath paths (if below then path.drop 1 else path)).2 = true
    · rw [if_pos hc] at hp; cases hp; exact ⟨par, path, hev, hc⟩
    · rw [if_neg hc] at hp; cases hp
  | leave => cases hp
  | openBox => cases hp
  | closeBox => cases hp

theorem clean_path {path : List BoxType} {b : BoxInfo} (h1 : ∀ t ∈ path.dropLast, t ≠ BoxType.any) (h2 : path.getLast? = some b.type)
    (h3 : b.type ≠ BoxType.any) : ∀ t ∈ path, t ≠ BoxType.any := by
  obtain ⟨l, rfl⟩ : ∃ l, path = l ++ [b.type] := by
    rw [List.getLast?_eq_some_iff] at h2
    exact h2
  rw [List.dropLast_concat] at h1
  intro t ht
  rcases List.mem_append.1 ht with h | h
  · exact h1 t h
  · rw [List.mem_singleton.1 h]; exact h3

/-- **C56**, at the root — On any file, `ExtractBoxes` does not panic, and every box it returns stands in the file where it says: one gets to
it from the root through boxes of the types of a path asked for. -/
theorem extract_sound (hd : d.length ≤ 2 ^ 48) (fuel : Nat) (paths : List (List BoxType)) (pos : Nat) :
    (extractBoxes BoxMap.std d fuel none paths pos).1 ≠ .panic ∧
    ∀ bis par p, extractBoxes BoxMap.std d fuel none paths pos = (.ok (bis, par), p) →
      par = none ∧ ∀ b ∈ bis, ∃ path, Leads d none path b ∧ Asked paths path := by
  unfold extractBoxes
  split
  · exact ⟨by simp, by intro bis par p h; cases h; exact ⟨rfl, by simp⟩⟩
  split
  · exact ⟨by simp, by intro bis par p h; cases h⟩
  simp only
  have hT := traverse_tr hd (extractHandler false paths) fuel () [] pos
  have hF := traverse_facts hd (extractHandler false paths) fuel () [] pos
  have hC : Collected false paths (traverse d (extractHandler false paths) fuel () [] pos).2 := by
    unfold traverse readBoxStructure
    exact gathers_bind (gathers_liftP _) (fun _ => gathers_readStructure _ _ _ _ _ _ _ (by simp)) ⟨pos, [], []⟩ ⟨rfl, by simp⟩
  unfold traverse at hT hF hC
  generalize readBoxStructure BoxMap.std d (extractHandler false paths) fuel () ⟨pos, [], []⟩ = x at hT hF hC ⊢
  obtain ⟨o, st⟩ := x
  cases o with
  | panic => exact absurd rfl (tr_no_panic hT)
  | err e => exact ⟨by simp, by intro bis par p h; cases h⟩
  | hang => exact ⟨by simp, by intro bis par p h; cases h⟩
  | ok vs =>
    refine ⟨by simp, ?_⟩
    intro bis par p h
    cases h
    refine ⟨rfl, fun b hb => ?_⟩
    rw [hC.1] at hb
    obtain ⟨par, path, hev, ht, hm⟩ := mem_pick hb
    obtain ⟨rest, hr1, hr2⟩ := tr_reached (start := none) (base := []) hT hF .root (.inl ⟨rfl, rfl⟩) par path b hev
    rw [List.nil_append] at hr1
    subst hr1
    exact ⟨path, hr2, (matchPath_iff (clean_path (hC.2 _ hev) (hF _ hev).2.1 ht)).2.1 hm⟩

theorem at_same {bi bi' : BoxInfo} (s : SameBox bi bi') {parent : Option BoxInfo} {pos : Nat} (h : At d parent pos) :
    parent = some bi' → At d (some bi) pos := by
  induction h with
  | root => intro e; cases e
  | first h =>
    intro e
    cases e
    rw [s.type, s.size, s.hdr, s.offset] at h
    rw [s.offset, s.hdr]
    exact .first h
  | next h hb ih => intro e; exact .next (ih e) hb

theorem leads_same {bi bi' : BoxInfo} (s : SameBox bi bi') {path : List BoxType} {b : BoxInfo} (h : Leads d (some bi') path b) :
    Leads d (some bi) path b := by
  induction h with
  | first hc =>
    refine .first ⟨hc.real, at_same s hc.place rfl, ?_⟩
    intro p hp hr
    cases hp
    have := hc.inside bi' rfl (by unfold Regular at hr ⊢; rw [s.offset, s.size, s.hdr]; exact hr)
    unfold Inside at this ⊢
    rw [s.offset, s.size, s.hdr] at this
    exact this
  | down h hc ih => exact .down ih hc

/-- **C56**, below a box — The same below a box of the file; the box itself is not changed but for its context. -/
theorem extract_below_sound (hd : d.length ≤ 2 ^ 48) (fuel : Nat) (bi : BoxInfo) (hbi : Real d bi) (paths : List (List BoxType))
    (pos : Nat) :
    (extractBoxes BoxMap.std d fuel (some bi) paths pos).1 ≠ .panic ∧
    ∀ bis par p, extractBoxes BoxMap.std d fuel (some bi) paths pos = (.ok (bis, par), p) →
      (∃ ctx, par = some { bi with ctx := ctx }) ∧ ∀ b ∈ bis, ∃ path, Leads d (some bi) path b ∧ Asked paths path := by
  unfold extractBoxes
  split
  · exact ⟨by simp, by intro bis par p h; cases h; exact ⟨⟨bi.ctx, rfl⟩, by simp⟩⟩
  split
  · exact ⟨by simp, by intro bis par p h; cases h⟩
  next hne =>
  simp only
  have hT := fromInternal_tr (show d.length ≤ maxAlloc from hd) (extractHandler true paths) (f := fuel)
    (rec := fun par total path ctx p => readStructure BoxMap.std d (extractHandler true paths) fuel (some par) total false path ctx p)
    (fun par total path ctx p st _ => readStructure_tr (show d.length ≤ maxAlloc from hd) _ fuel (some par) total false path ctx p st)
    none (header_of_real hd hbi) [] () ⟨pos, [], []⟩
  have hC : Collected true paths (readBoxStructureFrom BoxMap.std d (extractHandler true paths) fuel bi () ⟨pos, [], []⟩).2 := by
    unfold readBoxStructureFrom
    exact gathers_fromInternal (fun _ _ _ _ _ h => gathers_readStructure _ _ _ _ _ _ _ h) none bi [] (by simp) () _ ⟨rfl, by simp⟩
  have hx : fromInternal BoxMap.std d (extractHandler true paths)
      (fun par total path ctx p => readStructure BoxMap.std d (extractHandler true paths) fuel (some par) total false path ctx p)
      none bi [] () ⟨pos, [], []⟩ = readBoxStructureFrom BoxMap.std d (extractHandler true paths) fuel bi () ⟨pos, [], []⟩ := rfl
  rw [hx] at hT
  generalize readBoxStructureFrom BoxMap.std d (extractHandler true paths) fuel bi () ⟨pos, [], []⟩ = x at hT hC ⊢
  obtain ⟨o, st⟩ := x
  cases o with
  | panic => exact hT.elim
  | err e => exact ⟨by simp, by intro bis par p h; cases h⟩
  | hang => exact ⟨by simp, by intro bis par p h; cases h⟩
  | ok v =>
    obtain ⟨v, bi'⟩ := v
    obtain ⟨s, hb', ho', hp', L, hL, hT⟩ := hT
    refine ⟨by simp, ?_⟩
    intro bis par p h
    cases h
    refine ⟨⟨bi'.ctx, ?_⟩, fun b hb => ?_⟩
    · obtain ⟨s1, s2, s3, s4, s5⟩ := s
      cases bi'
      cases bi
      simp_all
    rw [hC.1] at hb
    obtain ⟨par, path, hev, ht, hm⟩ := mem_pick hb
    have hF : ∀ ev ∈ L, EvFact d ev := tr_facts (show d.length ≤ maxAlloc from hd) hT (by simp) hb'
    have hR := tr_reached (start := some bi') (base := [bi'.type]) hT hF (.inl ⟨rfl, rfl⟩)
    have hcl := hC.2 _ hev
    simp only [if_pos] at hm
    rw [hL] at hev
    simp only [List.nil_append, List.mem_cons, List.mem_append, reduceCtorEq, List.not_mem_nil, or_false] at hev
    rcases hev with hev | hev
    · cases hev
      exfalso
      have h0 := (matchPath_iff (paths := paths) (path := []) (by simp)).2.1 hm
      obtain ⟨-, q, hq1, hq2⟩ := h0
      cases q with
      | nil => exact hne (List.any_eq_true.2 ⟨[], hq1, rfl⟩)
      | cons a l => cases hq2
    · obtain ⟨rest, rfl, hl⟩ := hR par path b hev
      have hall := clean_path hcl (hF _ hev).2.1 ht
      refine ⟨rest, leads_same s hl, (matchPath_iff (fun t h => hall t (by simp [h]))).2.1 ?_⟩
      simpa using hm

/-! ## A concrete file -/

/-- A file that is not a sequence of boxes: `moov` of announced size 4, less than its own header. Extraction yields this box. -/
theorem outside_extracted : (extractBoxes BoxMap.std outsideFile 5 none [[⟨0x6d, 0x6f, 0x6f, 0x76⟩]] 0).1 =
    .ok ([{ offset := 0, size := 4, headerSize := 8, type := ⟨0x6d, 0x6f, 0x6f, 0x76⟩, extendToEOF := false, ctx := {} }], none) := by
  decide +kernel

/-- The path of `extract_sound` to that box. -/
example : ∃ path, Leads outsideFile none path { offset := 0, size := 4, headerSize := 8, type := ⟨0x6d, 0x6f, 0x6f, 0x76⟩, extendToEOF := false, ctx := {} } ∧
    Asked [[⟨0x6d, 0x6f, 0x6f, 0x76⟩]] path := by
  have h := outside_extracted
  have hs := (extract_sound (d := outsideFile) (by decide +kernel) 5 [[⟨0x6d, 0x6f, 0x6f, 0x76⟩]] 0).2
  generalize extractBoxes BoxMap.std outsideFile 5 none [[⟨0x6d, 0x6f, 0x6f, 0x76⟩]] 0 = x at h hs
  obtain ⟨o, p⟩ := x
  cases h
  exact (hs _ _ _ rfl).2 _ List.mem_cons_self

end Mp4.Props
