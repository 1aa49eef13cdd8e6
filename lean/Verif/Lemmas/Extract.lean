import Verif.Model.Extract
import Verif.Spec.Extract
import Verif.Lemmas.Forest

/-! # Extraction of boxes -/

namespace Mp4.Props

open Mp4

variable {S P V : Type} {d : Bytes}

/-! ## Matching -/

theorem hasPattern_length : ∀ {q t : List BoxType}, hasPattern q t = true → q.length = t.length
  | [], [], _ => rfl
  | q :: qs, t :: ts, h => by
    simp only [hasPattern, Bool.and_eq_true] at h
    simp [hasPattern_length h.2]

theorem matchWith_eq {l r : BoxType} (h : l ≠ ⟨0, 0, 0, 0⟩) : l.matchWith r = (r == ⟨0, 0, 0, 0⟩ || r == l) := by
  unfold BoxType.matchWith
  have : BoxType.any = ⟨0, 0, 0, 0⟩ := rfl
  rw [this]
  generalize (⟨0, 0, 0, 0⟩ : BoxType) = z at h
  by_cases hr : r = z
  · simp [hr]
  · by_cases hl : r = l
    · simp [hl, h]
    · have : l ≠ r := fun e => hl e.symm
      simp [h, hr, hl, this]

theorem prefixMatches_iff : ∀ {path q : List BoxType}, (∀ t ∈ path, t ≠ ⟨0, 0, 0, 0⟩) → path.length ≤ q.length →
    (prefixMatches path q = true ↔ hasPattern (q.take path.length) path = true)
  | [], q, _, _ => by simp [prefixMatches, hasPattern]
  | t :: ts, [], _, h => by simp at h
  | t :: ts, r :: rs, hz, h => by
    unfold prefixMatches
    rw [matchWith_eq (hz t (by simp))]
    simp only [List.length_cons, List.take_succ_cons, hasPattern, Bool.and_eq_true]
    rw [← prefixMatches_iff (fun t ht => hz t (by simp [ht])) (by simpa using h)]
    by_cases hc : (r == ⟨0, 0, 0, 0⟩ || r == t) = true
    · simp [hc]
    · simp [hc]

theorem compareWith_iff {path q : List BoxType} (hz : ∀ t ∈ path, t ≠ ⟨0, 0, 0, 0⟩) :
    ((compareWith path q).1 = true ↔ ∃ a b, q = a ++ b ∧ b ≠ [] ∧ hasPattern a path = true) ∧
    ((compareWith path q).2 = true ↔ hasPattern q path = true) := by
  unfold compareWith
  split
  · next hlt =>
    refine ⟨⟨fun h => by simp at h, ?_⟩, ⟨fun h => by simp at h, fun h => ?_⟩⟩
    · rintro ⟨a, b, rfl, hb, hp⟩
      have := hasPattern_length hp
      simp at hlt
      omega
    · have := hasPattern_length h
      omega
  · next hle =>
    have hle : path.length ≤ q.length := by omega
    have hp := prefixMatches_iff hz hle
    split
    · next hn =>
      have hn : ¬ hasPattern (q.take path.length) path = true := by rw [← hp]; exact hn
      refine ⟨⟨fun h => by simp at h, ?_⟩, ⟨fun h => by simp at h, fun h => ?_⟩⟩
      · rintro ⟨a, b, rfl, hb, hpp⟩
        have := hasPattern_length hpp
        rw [← this, List.take_left'] at hn
        · exact absurd hpp hn
        · rfl
      · have := hasPattern_length h
        rw [← this, List.take_length] at hn
        exact absurd h hn
    · next hn =>
      have hn : hasPattern (q.take path.length) path = true := by rw [← hp]; simpa using hn
      split
      · next hlt =>
        refine ⟨⟨fun _ => ⟨q.take path.length, q.drop path.length, by simp, ?_, hn⟩, fun _ => rfl⟩,
          ⟨fun h => by simp at h, fun h => ?_⟩⟩
        · intro he
          have := congrArg List.length he
          simp at this
          omega
        · have := hasPattern_length h
          omega
      · next hlt =>
        have he : q.length = path.length := by omega
        refine ⟨⟨fun h => by simp at h, ?_⟩, ⟨fun _ => ?_, fun _ => rfl⟩⟩
        · rintro ⟨a, b, rfl, hb, hpp⟩
          have := hasPattern_length hpp
          have := List.length_pos_iff.2 hb
          simp at he
          omega
        · rw [← he, List.take_length] at hn
          exact hn

theorem matchPath_fold (path : List BoxType) : ∀ (paths : List (List BoxType)) (acc : Bool × Bool),
    paths.foldl (fun acc q => (acc.1 || (compareWith path q).1, acc.2 || (compareWith path q).2)) acc =
      (acc.1 || paths.any (fun q => (compareWith path q).1), acc.2 || paths.any (fun q => (compareWith path q).2))
  | [], acc => by simp
  | q :: qs, acc => by
    rw [List.foldl_cons, matchPath_fold path qs]
    simp [Bool.or_assoc]

theorem matchPath_iff {paths : List (List BoxType)} {path : List BoxType} (hz : ∀ t ∈ path, t ≠ ⟨0, 0, 0, 0⟩) :
    ((matchPath paths path).1 = true ↔ AskedBelow paths path) ∧ ((matchPath paths path).2 = true ↔ Asked paths path) := by
  unfold matchPath
  rw [matchPath_fold]
  simp only [Bool.false_or, List.any_eq_true]
  constructor
  · constructor
    · rintro ⟨q, hq, hc⟩
      obtain ⟨a, b, rfl, hb, hp⟩ := (compareWith_iff hz).1.1 hc
      exact ⟨hz, a, b, hq, hb, hp⟩
    · rintro ⟨-, a, b, hq, hb, hp⟩
      exact ⟨a ++ b, hq, (compareWith_iff hz).1.2 ⟨a, b, rfl, hb, hp⟩⟩
  · constructor
    · rintro ⟨q, hq, hc⟩
      exact ⟨hz, q, hq, (compareWith_iff hz).2.1 hc⟩
    · rintro ⟨-, q, hq, hp⟩
      exact ⟨q, hq, (compareWith_iff hz).2.2 hp⟩


/-! ## Handlers that do the same -/

theorem fromInternal_congr {m : BoxMap} {h h' : Handler S P V}
    (e : ∀ path bi children hdl, runProg m d path bi children (h hdl) 0 = runProg m d path bi children (h' hdl) 0)
    {rec rec' : BoxInfo → Nat → List BoxType → Ctx → P → TM S V (List V)} (er : rec = rec')
    (parent : Option BoxInfo) (bi : BoxInfo) (path : List BoxType) (p : P) :
    fromInternal m d h rec parent bi path p = fromInternal m d h' rec' parent bi path p := by
  subst er
  unfold fromInternal
  simp only [e]

theorem readStructure_congr {m : BoxMap} {h h' : Handler S P V}
    (e : ∀ path bi children hdl, runProg m d path bi children (h hdl) 0 = runProg m d path bi children (h' hdl) 0) :
    ∀ (f : Nat) (parent : Option BoxInfo) (total : Nat) (isRoot : Bool) (path : List BoxType) (ctx : Ctx) (p : P),
      readStructure m d h f parent total isRoot path ctx p = readStructure m d h' f parent total isRoot path ctx p
  | 0, _, _, _, _, _, _ => rfl
  | f + 1, parent, total, isRoot, path, ctx, p => by
    have hf : ∀ bi, fromInternal m d h (fun par total path ctx p => readStructure m d h f (some par) total false path ctx p)
        parent bi path p = fromInternal m d h'
          (fun par total path ctx p => readStructure m d h' f (some par) total false path ctx p) parent bi path p := by
      intro bi
      apply fromInternal_congr e
      funext par total path ctx p
      exact readStructure_congr e f _ _ _ _ _ _
    have hr : ∀ total ctx, readStructure m d h f parent total isRoot path ctx p =
        readStructure m d h' f parent total isRoot path ctx p := fun _ _ => readStructure_congr e f _ _ _ _ _ _
    rw [readStructure, readStructure]
    simp only [hf, hr]

/-- path of a handle relative to the parent given -/
def relPath (below : Bool) (path : List BoxType) : List BoxType := if below then path.drop 1 else path

/-- note the box if it is asked for -/
def noteAsked (below : Bool) (paths : List (List BoxType)) (h : Handle Unit) (s : List BoxInfo) : List BoxInfo :=
  if h.info.type ≠ BoxType.any ∧ (matchPath paths (relPath below h.path)).2 = true then s ++ [h.info] else s

/-- expand the box if boxes below it may be asked for -/
def wantAsked (below : Bool) (paths : List (List BoxType)) (h : Handle Unit) : Bool :=
  decide (h.info.type ≠ BoxType.any) && (matchPath paths (relPath below h.path)).1

theorem extractHandler_eq {m : BoxMap} (below : Bool) (paths : List (List BoxType)) (path : List BoxType) (bi : BoxInfo)
    (children : Nat → Unit → TM (List BoxInfo) Unit (List Unit)) (hdl : Handle Unit) :
    runProg m d path bi children (extractHandler below paths hdl) 0 =
      runProg m d path bi children
        (walker (noteAsked below paths) (wantAsked below paths) (fun _ => ()) (fun _ _ => ()) hdl) 0 := by
  unfold extractHandler walker noteAsked wantAsked relPath
  by_cases ht : hdl.info.type = BoxType.any
  · funext st
    simp only [ht, if_true]
    rw [runProg, runProg, M.bind_ok (M.get_run st), runProg, M.bind_ok (M.modify_run _ st)]
    simp only [ne_eq, not_true, false_and, if_false, decide_false, Bool.false_and, Bool.false_eq_true]
    rfl
  · have hk : (extractDone : Except Err (List Unit) → Prog (List BoxInfo) Unit Unit) = finish (fun _ => ()) := by
      funext r; cases r <;> rfl
    simp only [ht, if_false, hk, ne_eq, not_false_eq_true, true_and, decide_true, Bool.true_and]

/-! ## What is collected -/

theorem hasPattern_append : ∀ {a q b : List BoxType}, hasPattern q (a ++ b) = true →
    ∃ qa qb, q = qa ++ qb ∧ hasPattern qa a = true ∧ hasPattern qb b = true
  | [], q, b, h => ⟨[], q, rfl, rfl, h⟩
  | t :: a, [], b, h => by simp [hasPattern] at h
  | t :: a, r :: q, b, h => by
    simp only [List.cons_append, hasPattern, Bool.and_eq_true] at h
    obtain ⟨qa, qb, rfl, h1, h2⟩ := hasPattern_append h.2
    exact ⟨r :: qa, qb, rfl, by simp only [hasPattern, Bool.and_eq_true]; exact ⟨h.1, h1⟩, h2⟩

theorem boxes_path : ∀ {F : Forest} {parent : Option BoxInfo} {path : List BoxType} {x : Option BoxInfo × List BoxType × BoxInfo},
    x ∈ F.boxes parent path → ∃ t r, x.2.1 = path ++ t :: r
  | .nil, _, _, _, h => by cases h
  | .leaf bi rest, parent, path, x, h => by
    rcases List.mem_cons.1 h with rfl | h
    · exact ⟨bi.type, [], rfl⟩
    · exact boxes_path h
  | .node bi n kids rest, parent, path, x, h => by
    rcases List.mem_cons.1 h with rfl | h
    · exact ⟨bi.type, [], rfl⟩
    · rcases List.mem_append.1 h with h | h
      · obtain ⟨t, r, e⟩ := boxes_path h
        exact ⟨bi.type, t :: r, by rw [e]; simp⟩
      · exact boxes_path h

theorem asked_below {paths : List (List BoxType)} {path r : List BoxType} {t : BoxType} (h : Asked paths (path ++ t :: r)) :
    AskedBelow paths path := by
  obtain ⟨hz, q, hq, hp⟩ := h
  obtain ⟨qa, qb, rfl, h1, h2⟩ := hasPattern_append hp
  refine ⟨fun t ht => hz t (by simp [ht]), qa, qb, hq, ?_, h1⟩
  rintro rfl
  cases h2

theorem none_asked {paths : List (List BoxType)} {F : Forest} {parent : Option BoxInfo} {path : List BoxType}
    (h : ¬ AskedBelow paths path) : (F.boxes parent path).filter (fun x => decide (Asked paths x.2.1)) = [] := by
  rw [List.filter_eq_nil_iff]
  intro x hx ha
  obtain ⟨t, r, e⟩ := boxes_path hx
  rw [decide_eq_true_eq, e] at ha
  exact h (asked_below ha)

theorem wantAsked_iff {below : Bool} {paths : List (List BoxType)} {path full : List BoxType} {bi : BoxInfo}
    (hz : ∀ t ∈ path, t ≠ ⟨0, 0, 0, 0⟩) (hr : relPath below full = path ++ [bi.type]) :
    wantAsked below paths ⟨(), bi, full⟩ = true ↔ AskedBelow paths (path ++ [bi.type]) := by
  unfold wantAsked
  simp only [hr, Bool.and_eq_true, decide_eq_true_eq]
  constructor
  · rintro ⟨h1, h2⟩
    refine (matchPath_iff ?_).1.1 h2
    intro t ht
    rcases List.mem_append.1 ht with ht | ht
    · exact hz t ht
    · rw [List.mem_singleton] at ht
      subst ht
      exact h1
  · intro h
    exact ⟨h.1 bi.type (by simp), (matchPath_iff h.1).1.2 h⟩

theorem noteAsked_eq {below : Bool} {paths : List (List BoxType)} {path full : List BoxType} {bi : BoxInfo}
    (hz : ∀ t ∈ path, t ≠ ⟨0, 0, 0, 0⟩) (hr : relPath below full = path ++ [bi.type]) (s : List BoxInfo) :
    noteAsked below paths ⟨(), bi, full⟩ s = if Asked paths (path ++ [bi.type]) then s ++ [bi] else s := by
  unfold noteAsked
  simp only [hr]
  by_cases ha : Asked paths (path ++ [bi.type])
  · rw [if_pos ha, if_pos ⟨ha.1 bi.type (by simp), (matchPath_iff ha.1).2.2 ha⟩]
  · rw [if_neg ha, if_neg]
    rintro ⟨h1, h2⟩
    refine ha ((matchPath_iff ?_).2.1 h2)
    intro t ht
    rcases List.mem_append.1 ht with ht | ht
    · exact hz t ht
    · rw [List.mem_singleton] at ht
      subst ht
      exact h1

theorem collected (below : Bool) (paths : List (List BoxType)) : ∀ (F : Forest) (parent parent' : Option BoxInfo)
    (full path : List BoxType) (s : List BoxInfo), (∀ r, relPath below (full ++ r) = path ++ r) →
    (∀ t ∈ path, t ≠ ⟨0, 0, 0, 0⟩) →
    (F.visited (wantAsked below paths) (fun _ => ()) parent full ()).foldl (fun s x => noteAsked below paths x.2 s) s =
      s ++ ((F.boxes parent' path).filter (fun x => decide (Asked paths x.2.1))).map (·.2.2)
  | .nil, _, _, _, _, s, _, _ => by simp [Forest.visited, Forest.boxes]
  | .leaf bi rest, parent, parent', full, path, s, hr, hz => by
    simp only [Forest.visited, Forest.boxes, List.foldl_cons]
    rw [collected below paths rest parent parent' full path _ hr hz, noteAsked_eq hz (hr _), List.filter_cons]
    by_cases ha : Asked paths (path ++ [bi.type])
    · simp [ha]
    · simp [ha]
  | .node bi n kids rest, parent, parent', full, path, s, hr, hz => by
    simp only [Forest.visited, Forest.boxes, List.foldl_cons, List.foldl_append]
    rw [collected below paths rest parent parent' full path _ hr hz, noteAsked_eq hz (hr _), List.filter_cons,
      List.filter_append]
    have hk : ∀ s, (if wantAsked below paths ⟨(), bi, full ++ [bi.type]⟩ = true then
        kids.visited (wantAsked below paths) (fun _ => ()) (some bi) (full ++ [bi.type]) () else []).foldl
          (fun s x => noteAsked below paths x.2 s) s =
        s ++ ((kids.boxes (some bi) (path ++ [bi.type])).filter (fun x => decide (Asked paths x.2.1))).map (·.2.2) := by
      intro s
      have hw := wantAsked_iff (paths := paths) hz (hr [bi.type])
      by_cases h : AskedBelow paths (path ++ [bi.type])
      · rw [if_pos (hw.2 h)]
        exact collected below paths kids _ _ _ _ s (fun r => by rw [List.append_assoc, hr, List.append_assoc]) h.1
      · rw [if_neg (fun e => h (hw.1 e)), none_asked h]
        simp
    rw [hk]
    by_cases ha : Asked paths (path ++ [bi.type])
    · simp [ha]
    · simp [ha]

/-- No leaf has the beginning of a path asked for. -/
theorem expandable_asked (below : Bool) (paths : List (List BoxType)) : ∀ (F : Forest) (full path : List BoxType),
    (∀ r, relPath below (full ++ r) = path ++ r) → (∀ t ∈ path, t ≠ ⟨0, 0, 0, 0⟩) →
    (∀ x ∈ leaves path F, ¬ AskedBelow paths x.1) → F.Expandable (wantAsked below paths) (fun _ => ()) full ()
  | .nil, _, _, _, _, _ => trivial
  | .leaf bi rest, full, path, hr, hz, h => by
    refine ⟨?_, expandable_asked below paths rest full path hr hz fun x hx => h x (List.mem_cons_of_mem _ hx)⟩
    have := h _ List.mem_cons_self
    rw [← Bool.not_eq_true]
    exact fun e => this ((wantAsked_iff hz (hr [bi.type])).1 e)
  | .node bi n kids rest, full, path, hr, hz, h => by
    refine ⟨fun hw => ?_, expandable_asked below paths rest full path hr hz fun x hx => h x (List.mem_append.2 (.inr hx))⟩
    have hw := (wantAsked_iff hz (hr [bi.type])).1 hw
    exact expandable_asked below paths kids _ _ (fun r => by rw [List.append_assoc, hr, List.append_assoc]) hw.1
      fun x hx => h x (List.mem_append.2 (.inl hx))

theorem wf_path : ∀ {F : Forest} {isRoot : Bool} {path path' : List BoxType} {ctx : Ctx} {pos total : Nat}, path ≠ [] →
    path' ≠ [] → F.WF d isRoot path ctx pos total → F.WF d isRoot path' ctx pos total
  | .nil, _, _, _, _, _, _, _, _, h => h
  | .leaf bi rest, _, _, _, _, _, _, h1, h2, ⟨hp, hw⟩ => ⟨placed_path h1 h2 hp, wf_path h1 h2 hw⟩
  | .node bi n kids rest, _, _, _, _, _, _, h1, h2, ⟨hp, hn, hk, hw⟩ =>
    ⟨placed_path h1 h2 hp, hn, wf_path (by simp) (by simp) hk, wf_path h1 h2 hw⟩
where
  placed_path {isRoot : Bool} {path path' : List BoxType} {ctx : Ctx} {pos total : Nat} {bi : BoxInfo} (h1 : path ≠ [])
      (h2 : path' ≠ []) (hp : Forest.Placed d isRoot path ctx pos total bi) :
      Forest.Placed d isRoot path' ctx pos total bi :=
    ⟨hp.offset, hp.header, hp.whole, hp.inFile, hp.inParent, hp.own.wave, hp.own.ilst, hp.own.ilstMeta, hp.own.ilstFree,
      hp.own.udta, hp.own.qt.trans ⟨fun h => h.imp id fun h => absurd h.1 h1, fun h => h.imp id fun h => absurd h.1 h2⟩,
      fun h => absurd h h2, hp.own.keys, hp.own.keys'⟩

end Mp4.Props
