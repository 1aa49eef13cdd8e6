import Verif.Props.Extract
import Verif.Props.ProbeTables

/-!
# C34, C51: the summary of a file
-/

namespace Mp4.Props

open Mp4

variable {d : Bytes}

/-! ## Which boxes are asked for -/

theorem hasPattern_exact : ∀ {q p : List BoxType}, (∀ t ∈ q, t ≠ ⟨0, 0, 0, 0⟩) → (hasPattern q p = true ↔ q = p)
  | [], [], _ => by simp [hasPattern]
  | [], _ :: _, _ => by simp [hasPattern]
  | _ :: _, [], _ => by simp [hasPattern]
  | a :: q, b :: p, h => by
    have h1 := h a List.mem_cons_self
    have h2 := hasPattern_exact (q := q) (p := p) fun t ht => h t (List.mem_cons_of_mem _ ht)
    unfold hasPattern
    rw [beq_eq_false_iff_ne.2 h1, Bool.false_or, Bool.and_eq_true, beq_iff_eq, h2]
    constructor
    · rintro ⟨rfl, rfl⟩; rfl
    · intro e; cases e; exact ⟨rfl, rfl⟩

theorem probePaths_types : ∀ q ∈ probePaths, ∀ t ∈ q, t ≠ ⟨0, 0, 0, 0⟩ := by decide +kernel

theorem asked_probe (p : List BoxType) : Asked probePaths p ↔ p ∈ probePaths := by
  constructor
  · rintro ⟨-, q, hq, hp⟩
    rw [hasPattern_exact (probePaths_types q hq)] at hp
    exact hp ▸ hq
  · intro h
    exact ⟨probePaths_types p h, p, h, (hasPattern_exact (probePaths_types p h)).2 rfl⟩

theorem askedBelow_probe {p : List BoxType} (hp : p ≠ []) (h : AskedBelow probePaths p) : p = [tMoov] := by
  obtain ⟨-, a, b, hq, hb, he⟩ := h
  have ha : ∀ t ∈ a, t ≠ ⟨0, 0, 0, 0⟩ := fun t ht => probePaths_types _ hq t (List.mem_append.2 (.inl ht))
  rw [hasPattern_exact ha] at he
  subst he
  have key : ∀ q ∈ probePaths, ∀ a b, a ++ b = q → b ≠ [] → a ≠ [] → a = [tMoov] := by
    intro q hq' a b e hb ha
    have hl : ∀ q ∈ probePaths, q.length = 1 ∨ (q.length = 2 ∧ q.take 1 = [tMoov]) := by decide +kernel
    have h1 := List.length_pos_iff.2 hb
    have h2 := List.length_pos_iff.2 ha
    have h3 := congrArg List.length e
    rw [List.length_append] at h3
    rcases hl q hq' with h | ⟨h, h'⟩
    · omega
    · rw [← h', ← e, List.take_append, List.take_of_length_le (by omega)]
      simp [show 1 - a.length = 0 by omega]
  exact key _ hq a b rfl hb hp

theorem boxes_last : ∀ (F : Forest) (parent : Option BoxInfo) (path : List BoxType), ∀ x ∈ F.boxes parent path,
    ∃ p, x.2.1 = path ++ p ++ [x.2.2.type]
  | .nil, _, _, x, hx => by simp [Forest.boxes] at hx
  | .leaf bi rest, parent, path, x, hx => by
    rcases List.mem_cons.1 hx with rfl | hx
    · exact ⟨[], by simp⟩
    · exact boxes_last rest parent path x hx
  | .node bi n kids rest, parent, path, x, hx => by
    rcases List.mem_cons.1 hx with rfl | hx
    · exact ⟨[], by simp⟩
    · rcases List.mem_append.1 hx with hx | hx
      · obtain ⟨p, hp⟩ := boxes_last kids _ _ x hx
        exact ⟨bi.type :: p, by rw [hp]; simp⟩
      · exact boxes_last rest parent path x hx

/-! ## The order of `moov` and `mdat` -/

/-- what the loop of `Probe` does with the types of the boxes -/
def fastOf : List BoxType → Bool → Bool → Bool
  | [], _, cur => cur
  | t :: ts, seen, cur => fastOf ts (seen || t == tMdat) (if t = tMoov then !seen else cur)

theorem fastOf_spec : ∀ (ts : List BoxType) (seen cur : Bool), fastOf ts seen cur = true ↔
    (seen = false ∧ ∃ a b, ts = a ++ tMoov :: b ∧ tMoov ∉ b ∧ tMdat ∉ a) ∨ (tMoov ∉ ts ∧ cur = true)
  | [], seen, cur => by simp [fastOf]
  | t :: ts, seen, cur => by
    unfold fastOf
    rw [fastOf_spec ts]
    have hdiff : tMoov ≠ tMdat := by decide
    by_cases h1 : t = tMoov
    · subst h1
      rw [if_pos rfl, beq_eq_false_iff_ne.2 hdiff, Bool.or_false]
      constructor
      · rintro (⟨h, a, b, e, h2, h3⟩ | ⟨h2, h3⟩)
        · exact .inl ⟨h, tMoov :: a, b, by rw [e]; rfl, h2, by simp [h3, hdiff.symm]⟩
        · exact .inl ⟨by simpa using h3, [], ts, rfl, h2, by simp⟩
      · rintro (⟨h, a, b, e, h2, h3⟩ | ⟨h2, -⟩)
        · cases a with
          | nil =>
            cases e
            exact .inr ⟨h2, by simp [h]⟩
          | cons x a =>
            cases e
            exact .inl ⟨h, a, b, rfl, h2, fun hm => h3 (List.mem_cons_of_mem _ hm)⟩
        · exact absurd List.mem_cons_self h2
    · rw [if_neg h1]
      constructor
      · rintro (⟨h, a, b, e, h2, h3⟩ | ⟨h2, h3⟩)
        · rw [Bool.or_eq_false_iff] at h
          have h4 := beq_eq_false_iff_ne.1 h.2
          exact .inl ⟨h.1, t :: a, b, by rw [e]; rfl, h2, by
            intro hm
            rcases List.mem_cons.1 hm with hm | hm
            · exact h4 hm.symm
            · exact h3 hm⟩
        · exact .inr ⟨by
            intro hm
            rcases List.mem_cons.1 hm with hm | hm
            · exact h1 hm.symm
            · exact h2 hm, h3⟩
      · rintro (⟨h, a, b, e, h2, h3⟩ | ⟨h2, h3⟩)
        · cases a with
          | nil => cases e; exact absurd rfl h1
          | cons x a =>
            cases e
            refine .inl ⟨?_, a, b, rfl, h2, fun hm => h3 (List.mem_cons_of_mem _ hm)⟩
            rw [h, Bool.false_or, beq_eq_false_iff_ne]
            intro e
            exact h3 (e ▸ List.mem_cons_self)
        · exact .inr ⟨fun hm => h2 (List.mem_cons_of_mem _ hm), h3⟩

/-- only `moov` and `mdat` matter -/
def matters (t : BoxType) : Bool := t == tMoov || t == tMdat

theorem fastOf_filter : ∀ (ts : List BoxType) (seen cur : Bool), fastOf (ts.filter matters) seen cur = fastOf ts seen cur
  | [], _, _ => rfl
  | t :: ts, seen, cur => by
    by_cases h : matters t = true
    · rw [List.filter_cons_of_pos h]
      unfold fastOf
      rw [fastOf_filter ts]
    · rw [List.filter_cons_of_neg h]
      unfold matters at h
      rw [Bool.or_eq_true, not_or, beq_iff_eq, beq_iff_eq] at h
      rw [show fastOf (t :: ts) seen cur = fastOf ts (seen || t == tMdat) (if t = tMoov then !seen else cur) from rfl,
        if_neg h.1, beq_eq_false_iff_ne.2 h.2, Bool.or_false, fastOf_filter ts]

theorem inner_none (F : Forest) (parent : Option BoxInfo) (t : BoxType) :
    (((F.boxes parent [t]).filter fun x => decide (Asked probePaths x.2.1)).map (·.2.2.type)).filter matters = [] := by
  rw [List.filter_eq_nil_iff]
  intro ty hty
  obtain ⟨x, hx, rfl⟩ := List.mem_map.1 hty
  rw [List.mem_filter, decide_eq_true_eq, asked_probe] at hx
  obtain ⟨p, hp⟩ := boxes_last F _ _ x hx.1
  have key : ∀ q ∈ probePaths, ∀ t', q.getLast? = some t' → 2 ≤ q.length → ¬ matters t' = true := by
    intro q hq t' ht' hl
    have : ∀ q ∈ probePaths, 2 ≤ q.length → (q.getLast?.map matters) = some false := by decide +kernel
    have := this q hq hl
    rw [ht'] at this
    simpa using this
  exact key x.2.1 hx.2 _ (by rw [hp, List.getLast?_append]; rfl) (by rw [hp]; simp)

theorem asked_root_types : ∀ (F : Forest) (parent : Option BoxInfo),
    (((F.boxes parent []).filter fun x => decide (Asked probePaths x.2.1)).map (·.2.2.type)).filter matters =
      (rootTypes F).filter matters
  | .nil, _ => rfl
  | .leaf bi rest, parent => by
    have ih := asked_root_types rest parent
    simp only [Forest.boxes, rootTypes, List.nil_append]
    exact head_asked bi _ _ _ ih
  | .node bi n kids rest, parent => by
    have ih := asked_root_types rest parent
    simp only [Forest.boxes, rootTypes, List.nil_append]
    apply head_asked
    rw [List.filter_append, List.map_append, List.filter_append, inner_none, ih]
    rfl
where
  head_asked (bi : BoxInfo) (parent : Option BoxInfo) (l : List (Option BoxInfo × List BoxType × BoxInfo)) (ts : List BoxType)
      (ih : ((l.filter fun x => decide (Asked probePaths x.2.1)).map (·.2.2.type)).filter matters = ts.filter matters) :
      ((((parent, [bi.type], bi) :: l).filter fun x => decide (Asked probePaths x.2.1)).map (·.2.2.type)).filter matters =
        (bi.type :: ts).filter matters := by
    by_cases h : matters bi.type = true
    · have ha : Asked probePaths [bi.type] := by
        rw [asked_probe]
        unfold matters at h
        rw [Bool.or_eq_true, beq_iff_eq, beq_iff_eq] at h
        rcases h with h | h <;> rw [h] <;> decide +kernel
      rw [List.filter_cons_of_pos (by simpa using ha), List.map_cons, List.filter_cons_of_pos h, List.filter_cons_of_pos h, ih]
    · rw [List.filter_cons_of_neg h, ← ih]
      by_cases ha : Asked probePaths [bi.type]
      · rw [List.filter_cons_of_pos (by simpa using ha), List.map_cons, List.filter_cons_of_neg h]
      · rw [List.filter_cons_of_neg (by simpa using ha)]

/-! ## The loop of `Probe` -/

theorem aligned_nil {α β : Type} {R : α → β → Prop} : Aligned R [] [] := ⟨rfl, by simp⟩

theorem aligned_cons {α β : Type} {R : α → β → Prop} {a : α} {b : β} {l : List α} {l' : List β} (h : R a b) (hl : Aligned R l l') :
    Aligned R (a :: l) (b :: l') := by
  refine ⟨by simp [hl.1], fun i x y hx hy => ?_⟩
  cases i with
  | zero => cases hx; cases hy; exact h
  | succ i => exact hl.2 i x y hx hy

/-- the brands of the last of these boxes, as `Unmarshal` gives them -/
def BrandsOf (d : Bytes) (l : List BoxInfo) (info : ProbeInfo) : Prop :=
  match l.getLast? with
  | none => info.majorBrand = [0, 0, 0, 0] ∧ info.minorVersion = 0 ∧ info.compatibleBrands = []
  | some bi => ∃ p q ftyp, unmarshalAt d Cat.bdFtyp bi p = (.ok ftyp, q) ∧ info.majorBrand = ftyp.byteArr "MajorBrand" ∧
      info.minorVersion = ftyp.uint "MinorVersion" ∧
      info.compatibleBrands = (rows ftyp "CompatibleBrands").map fun e => e.byteArr "CompatibleBrand"

/-- timescale and duration of the last of these boxes, as `Unmarshal` gives them -/
def MovieOf (d : Bytes) (l : List BoxInfo) (info : ProbeInfo) : Prop :=
  match l.getLast? with
  | none => info.timescale = 0 ∧ info.duration = 0
  | some bi => ∃ p q mvhd, unmarshalAt d Cat.bdMvhd bi p = (.ok mvhd, q) ∧ info.timescale = mvhd.uint "Timescale" ∧
      info.duration = if mvhd.version = 0 then mvhd.uint "DurationV0" else mvhd.uint "DurationV1"

/-- the state after the boxes `done` -/
structure SoFar (d : Bytes) (fuel : Nat) (done : List BoxInfo) (info : ProbeInfo) : Prop where
  tracks : Aligned (fun bi t => ∃ p q, probeTrak BoxMap.std d fuel bi p = (.ok t, q)) (done.filter (·.type = tTrak)) info.tracks
  segments : Aligned (fun bi s => ∃ p q, probeMoof BoxMap.std d fuel bi p = (.ok s, q)) (done.filter (·.type = tMoof)) info.segments
  brands : BrandsOf d (done.filter (·.type = tFtyp)) info
  movie : MovieOf d (done.filter (·.type = tMvhd)) info

theorem aligned_snoc {α β : Type} {R : α → β → Prop} {a : α} {b : β} : ∀ {l : List α} {l' : List β}, Aligned R l l' → R a b →
    Aligned R (l ++ [a]) (l' ++ [b])
  | [], [], _, h => aligned_cons h aligned_nil
  | [], _ :: _, hl, _ => absurd hl.1 (by simp)
  | _ :: _, [], hl, _ => absurd hl.1 (by simp)
  | x :: l, y :: l', hl, h => by
    refine aligned_cons (hl.2 0 x y rfl rfl) (aligned_snoc ⟨by simpa using hl.1, fun i a b h1 h2 => hl.2 (i + 1) a b h1 h2⟩ h)

theorem filter_snoc_ne {done : List BoxInfo} {bi : BoxInfo} {t : BoxType} (h : bi.type ≠ t) :
    (done ++ [bi]).filter (·.type = t) = done.filter (·.type = t) := by
  rw [List.filter_append, List.filter_cons_of_neg (by simpa using h)]
  simp

theorem filter_snoc_eq {done : List BoxInfo} {bi : BoxInfo} {t : BoxType} (h : bi.type = t) :
    (done ++ [bi]).filter (·.type = t) = done.filter (·.type = t) ++ [bi] := by
  rw [List.filter_append, List.filter_cons_of_pos (by simpa using h)]
  simp

theorem probeOne_ok {fuel : Nat} {bi : BoxInfo} {seen seen' : Bool} {info info' : ProbeInfo} {pos pos' : Nat} {done : List BoxInfo}
    (hs : SoFar d fuel done info) (h : probeOne BoxMap.std d fuel bi seen info pos = (.ok (seen', info'), pos')) :
    SoFar d fuel (done ++ [bi]) info' ∧ seen' = (seen || bi.type == tMdat) ∧
      info'.fastStart = (if bi.type = tMoov then !seen else info.fastStart) := by
  obtain ⟨s1, s2, s3, s4⟩ := hs
  unfold probeOne at h
  by_cases e1 : bi.type = tFtyp
  · rw [if_pos e1] at h
    obtain ⟨ftyp, p1, u, h⟩ := bind_ok_inv h
    cases h
    refine ⟨⟨?_, ?_, ?_, ?_⟩, ?_, ?_⟩
    · rw [filter_snoc_ne (by rw [e1]; decide)]; exact s1
    · rw [filter_snoc_ne (by rw [e1]; decide)]; exact s2
    · rw [filter_snoc_eq e1]
      unfold BrandsOf
      rw [List.getLast?_append]
      exact ⟨pos, _, ftyp, u, rfl, rfl, rfl⟩
    · rw [filter_snoc_ne (by rw [e1]; decide)]; exact s4
    · rw [e1, show (tFtyp == tMdat) = false by decide, Bool.or_false]
    · rw [if_neg (by rw [e1]; decide)]
  rw [if_neg e1] at h
  by_cases e2 : bi.type = tMoov
  · rw [if_pos e2] at h
    cases h
    refine ⟨⟨?_, ?_, ?_, ?_⟩, ?_, ?_⟩
    · rw [filter_snoc_ne (by rw [e2]; decide)]; exact s1
    · rw [filter_snoc_ne (by rw [e2]; decide)]; exact s2
    · rw [filter_snoc_ne e1]; exact s3
    · rw [filter_snoc_ne (by rw [e2]; decide)]; exact s4
    · rw [e2, show (tMoov == tMdat) = false by decide, Bool.or_false]
    · rw [if_pos e2]
  rw [if_neg e2] at h
  rw [if_neg e2]
  by_cases e3 : bi.type = tMvhd
  · rw [if_pos e3] at h
    obtain ⟨mvhd, p1, u, h⟩ := bind_ok_inv h
    cases h
    refine ⟨⟨?_, ?_, ?_, ?_⟩, ?_, rfl⟩
    · rw [filter_snoc_ne (by rw [e3]; decide)]; exact s1
    · rw [filter_snoc_ne (by rw [e3]; decide)]; exact s2
    · rw [filter_snoc_ne e1]; exact s3
    · rw [filter_snoc_eq e3]
      unfold MovieOf
      rw [List.getLast?_append]
      exact ⟨pos, _, mvhd, u, rfl, rfl⟩
    · rw [e3, show (tMvhd == tMdat) = false by decide, Bool.or_false]
  rw [if_neg e3] at h
  by_cases e4 : bi.type = tTrak
  · rw [if_pos e4] at h
    obtain ⟨t, p1, u, h⟩ := bind_ok_inv h
    cases h
    refine ⟨⟨?_, ?_, ?_, ?_⟩, ?_, rfl⟩
    · rw [filter_snoc_eq e4]
      exact aligned_snoc s1 ⟨pos, _, u⟩
    · rw [filter_snoc_ne (by rw [e4]; decide)]; exact s2
    · rw [filter_snoc_ne e1]; exact s3
    · rw [filter_snoc_ne e3]; exact s4
    · rw [e4, show (tTrak == tMdat) = false by decide, Bool.or_false]
  rw [if_neg e4] at h
  by_cases e5 : bi.type = tMoof
  · rw [if_pos e5] at h
    obtain ⟨t, p1, u, h⟩ := bind_ok_inv h
    cases h
    refine ⟨⟨?_, ?_, ?_, ?_⟩, ?_, rfl⟩
    · rw [filter_snoc_ne e4]; exact s1
    · rw [filter_snoc_eq e5]
      exact aligned_snoc s2 ⟨pos, _, u⟩
    · rw [filter_snoc_ne e1]; exact s3
    · rw [filter_snoc_ne e3]; exact s4
    · rw [e5, show (tMoof == tMdat) = false by decide, Bool.or_false]
  rw [if_neg e5] at h
  by_cases e6 : bi.type = tMdat
  · rw [if_pos e6] at h
    cases h
    refine ⟨⟨?_, ?_, ?_, ?_⟩, ?_, rfl⟩
    · rw [filter_snoc_ne e4]; exact s1
    · rw [filter_snoc_ne e5]; exact s2
    · rw [filter_snoc_ne e1]; exact s3
    · rw [filter_snoc_ne e3]; exact s4
    · rw [e6]; simp
  rw [if_neg e6] at h
  cases h
  refine ⟨⟨?_, ?_, ?_, ?_⟩, ?_, rfl⟩
  · rw [filter_snoc_ne e4]; exact s1
  · rw [filter_snoc_ne e5]; exact s2
  · rw [filter_snoc_ne e1]; exact s3
  · rw [filter_snoc_ne e3]; exact s4
  · rw [beq_eq_false_iff_ne.2 e6, Bool.or_false]

theorem probeLoop_ok {fuel : Nat} : ∀ {bis done : List BoxInfo} {seen : Bool} {info info' : ProbeInfo} {pos pos' : Nat},
    SoFar d fuel done info → probeLoop BoxMap.std d fuel bis seen info pos = (.ok info', pos') →
    SoFar d fuel (done ++ bis) info' ∧ info'.fastStart = fastOf (bis.map (·.type)) seen info.fastStart
  | [], done, seen, info, info', pos, pos', hs, h => by
    cases h
    exact ⟨by rw [List.append_nil]; exact hs, rfl⟩
  | bi :: bis, done, seen, info, info', pos, pos', hs, h => by
    unfold probeLoop at h
    obtain ⟨⟨seen1, info1⟩, p1, e1, h⟩ := bind_ok_inv h
    obtain ⟨h1, h2, h3⟩ := probeOne_ok hs e1
    obtain ⟨h4, h5⟩ := probeLoop_ok h1 h
    refine ⟨by rw [List.append_assoc] at h4; exact h4, ?_⟩
    rw [h5, h2, h3]
    rfl

theorem soFar_nil (fuel : Nat) : SoFar d fuel [] {} :=
  ⟨aligned_nil, aligned_nil, ⟨rfl, rfl, rfl⟩, ⟨rfl, rfl⟩⟩

theorem probe_ok (hd : d.length ≤ 2 ^ 48) (F : Forest) (hwf : F.WF d true [] {} 0 0) (hleaf : ∀ x ∈ leaves [] F, x.1 ≠ [tMoov])
    (fuel : Nat) (hf : F.count < fuel) (pos pos' : Nat) (info : ProbeInfo)
    (h : probe BoxMap.std d fuel pos = (.ok info, pos')) :
    SoFar d fuel (askedBoxes probePaths F) info ∧ info.fastStart = fastOf ((askedBoxes probePaths F).map (·.type)) false false := by
  unfold probe at h
  obtain ⟨⟨bis, par⟩, p1, e1, h⟩ := bind_ok_inv h
  have hne : ∀ x ∈ leaves [] F, x.1 ≠ [] := leaves_ne F []
  have := extract_exact_partial hd F hwf probePaths (by decide +kernel)
    (fun x hx ha => hleaf x hx (askedBelow_probe (hne x hx) ha)) fuel hf pos
  rw [e1] at this
  cases this
  have := probeLoop_ok (soFar_nil fuel) h
  rw [List.nil_append] at this
  exact this
where
  leaves_ne : ∀ (F : Forest) (path : List BoxType), ∀ x ∈ leaves path F, x.1 ≠ []
    | .nil, _, x, hx => by simp [leaves] at hx
    | .leaf bi rest, path, x, hx => by
      rcases List.mem_cons.1 hx with rfl | hx
      · simp
      · exact leaves_ne rest path x hx
    | .node bi n kids rest, path, x, hx => by
      rcases List.mem_append.1 hx with hx | hx
      · exact leaves_ne kids _ x hx
      · exact leaves_ne rest _ x hx

theorem asked_of_type (F : Forest) (t : BoxType) (path : List BoxType) (hp : path ∈ probePaths)
    (hu : ∀ q ∈ probePaths, q.getLast? = some t ↔ q = path) :
    (askedBoxes probePaths F).filter (·.type = t) = boxesAt F path := by
  unfold askedBoxes boxesAt
  rw [List.filter_map, List.filter_filter]
  congr 1
  refine List.filter_congr fun x hx => ?_
  obtain ⟨p, hxp⟩ := boxes_last F _ _ x hx
  rw [Bool.eq_iff_iff, Bool.and_eq_true]
  simp only [Function.comp_apply, decide_eq_true_eq]
  rw [asked_probe]
  have hl : x.2.1.getLast? = some x.2.2.type := by rw [hxp]; simp
  constructor
  · rintro ⟨h1, h2⟩
    exact (hu _ h2).1 (by rw [hl, h1])
  · intro h
    refine ⟨?_, by rw [h]; exact hp⟩
    have := (hu x.2.1 (by rw [h]; exact hp)).2 h
    rw [hl] at this
    exact Option.some.inj this

/-- **C34**, what the library does — On every well-formed file that can be summarised, `FastStart` says whether there is a `moov` box at
the root, and no `mdat` box is before the *last* one. -/
theorem fast_start_exact (hd : d.length ≤ 2 ^ 48) (F : Forest) (hwf : F.WF d true [] {} 0 0)
    (hleaf : ∀ x ∈ leaves [] F, x.1 ≠ [tMoov]) (fuel : Nat) (hf : F.count < fuel) (pos pos' : Nat) (info : ProbeInfo)
    (h : probe BoxMap.std d fuel pos = (.ok info, pos')) :
    info.fastStart = true ↔ ∃ a b, rootTypes F = a ++ tMoov :: b ∧ tMoov ∉ b ∧ tMdat ∉ a := by
  rw [(probe_ok hd F hwf hleaf fuel hf pos pos' info h).2, ← fastOf_filter]
  have : ((askedBoxes probePaths F).map (·.type)).filter matters = (rootTypes F).filter matters := by
    rw [← asked_root_types F none]
    unfold askedBoxes
    rw [List.map_map]
    rfl
  rw [this, fastOf_filter, fastOf_spec]
  simp

/-- **C34**, partial — On every well-formed file that can be summarised and has one `moov` box and some `mdat` box at the root, `FastStart`
says whether the `moov` box precedes every `mdat` box.

Missing: a file without `mdat` boxes is reported as fast start (`fast_start_no_mdat`), and with several `moov` boxes the
last one is decisive (`fast_start_two_moov`). -/
theorem fast_start_partial (hd : d.length ≤ 2 ^ 48) (F : Forest) (hwf : F.WF d true [] {} 0 0)
    (hleaf : ∀ x ∈ leaves [] F, x.1 ≠ [tMoov]) (fuel : Nat) (hf : F.count < fuel) (pos pos' : Nat) (info : ProbeInfo)
    (h : probe BoxMap.std d fuel pos = (.ok info, pos')) (hmoov : (rootTypes F).count tMoov ≤ 1) (hmdat : tMdat ∈ rootTypes F) :
    info.fastStart = true ↔ ∃ a b, rootTypes F = a ++ tMoov :: b ∧ tMdat ∉ a ∧ tMdat ∈ b := by
  rw [fast_start_exact hd F hwf hleaf fuel hf pos pos' info h]
  constructor
  · rintro ⟨a, b, e, h1, h2⟩
    refine ⟨a, b, e, h2, ?_⟩
    rw [e, List.mem_append, List.mem_cons] at hmdat
    rcases hmdat with h | h | h
    · exact absurd h h2
    · exact absurd h (by decide)
    · exact h
  · rintro ⟨a, b, e, h1, h2⟩
    refine ⟨a, b, e, ?_, h1⟩
    intro hm
    rw [e, List.count_append, List.count_cons_self] at hmoov
    have := List.count_pos_iff.2 hm
    omega

/-- **C51** — On every well-formed file that can be summarised, the summary has one track for each `moov/trak` box and one segment for each
`moof` box at the root, in file order, each made from that box; the brands of the last `ftyp` box and the timescale and duration of the
last `moov/mvhd` box (zero values if there is none). -/
theorem probe_summary (hd : d.length ≤ 2 ^ 48) (F : Forest) (hwf : F.WF d true [] {} 0 0)
    (hleaf : ∀ x ∈ leaves [] F, x.1 ≠ [tMoov]) (fuel : Nat) (hf : F.count < fuel) (pos pos' : Nat) (info : ProbeInfo)
    (h : probe BoxMap.std d fuel pos = (.ok info, pos')) :
    Aligned (fun bi t => ∃ p q, probeTrak BoxMap.std d fuel bi p = (.ok t, q)) (boxesAt F [tMoov, tTrak]) info.tracks ∧
    Aligned (fun bi s => ∃ p q, probeMoof BoxMap.std d fuel bi p = (.ok s, q)) (boxesAt F [tMoof]) info.segments ∧
    BrandsOf d (boxesAt F [tFtyp]) info ∧ MovieOf d (boxesAt F [tMoov, tMvhd]) info := by
  obtain ⟨⟨s1, s2, s3, s4⟩, -⟩ := probe_ok hd F hwf hleaf fuel hf pos pos' info h
  rw [asked_of_type F tTrak [tMoov, tTrak] (by decide +kernel) (by decide +kernel)] at s1
  rw [asked_of_type F tMoof [tMoof] (by decide +kernel) (by decide +kernel)] at s2
  rw [asked_of_type F tFtyp [tFtyp] (by decide +kernel) (by decide +kernel)] at s3
  rw [asked_of_type F tMvhd [tMoov, tMvhd] (by decide +kernel) (by decide +kernel)] at s4
  exact ⟨s1, s2, s3, s4⟩

/-! ## Files that meet the conditions, and files for which the claim fails -/

/-- an empty `moov` box, then an empty `mdat` box -/
def fastFile : Bytes := [0, 0, 0, 8, 109, 111, 111, 118, 0, 0, 0, 8, 109, 100, 97, 116]

/-- its boxes -/
def fastForest : Forest := .node ⟨0, 8, 8, tMoov, false, {}⟩ 0 .nil (.node ⟨8, 8, 8, tMdat, false, {}⟩ 0 .nil .nil)

theorem fastFile_wf : fastForest.WF fastFile true [] {} 0 0 := by
  refine ⟨⟨rfl, by decide +kernel, by decide, by decide, .inl rfl, ownCtx_plain rfl (by decide) (by decide)⟩,
    payloadN_of (by decide +kernel), .inl rfl,
    ⟨⟨rfl, by decide +kernel, by decide, by decide, .inl rfl, ownCtx_plain rfl (by decide) (by decide)⟩,
      payloadN_of (by decide +kernel), .inl rfl, rfl⟩⟩

example := fast_start_partial (by decide) fastForest fastFile_wf (by decide +kernel) 9 (by decide) 0 _ _
  (show probe BoxMap.std fastFile 9 0 = (.ok { fastStart := true }, 16) by decide +kernel) (by decide +kernel) (by decide +kernel)

example := probe_summary (by decide) fastForest fastFile_wf (by decide +kernel) 9 (by decide) 0 _ _
  (show probe BoxMap.std fastFile 9 0 = (.ok { fastStart := true }, 16) by decide +kernel)

/-- **C34**, refuted in full — A file without any `mdat` box (so nothing that `moov` precedes) is reported as fast start. -/
theorem fast_start_no_mdat : probe BoxMap.std [0, 0, 0, 8, 109, 111, 111, 118] 9 0 = (.ok { fastStart := true }, 8) := by
  decide +kernel

/-- **C34**, refuted in full — `moov`, `mdat`, `moov`: the first `moov` box precedes all media data, but the file is reported as not fast
start. -/
theorem fast_start_two_moov : probe BoxMap.std (fastFile ++ [0, 0, 0, 8, 109, 111, 111, 118]) 9 0 =
    (.ok { fastStart := false }, 24) := by
  decide +kernel

end Mp4.Props
