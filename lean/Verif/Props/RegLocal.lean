import Verif.Lemmas.RegLocal
import Verif.Props.TraverseAny

/-!
# C74: registrations matter only for boxes of their type

Two registries (`m` and `m'`) agree on some types: for these the same definitions have been registered, in the same order.  For the other types
they may differ in any way; nothing is assumed of the definitions.
-/

namespace Mp4.Props

open Mp4

variable {S P V : Type} {m m' : BoxMap} {d : Bytes}

/-- **C74** — Traversal of any file by any handler: either the handler is called for a box of a type on which the registries differ, or everything is the
same: the outcome, the variables of the handler, the calls and their results, the position.  The handlers may differ for boxes of such types, too (as one that
asks `IsSupported` does). -/
theorem registration_local (hf : m tFtyp = m' tFtyp) (hk : m tKeys = m' tKeys) {h h' : Handler S P V}
    (hh : ∀ hd, m hd.info.type = m' hd.info.type → h hd = h' hd) (fuel : Nat) (p : P) (s : S) (pos : Nat) :
    (∃ parent path bi, Ev.enter parent path bi ∈ (Reg.traverse m d h fuel p s pos).2.log ∧ m bi.type ≠ m' bi.type) ∨
    Reg.traverse m d h fuel p s pos = Reg.traverse m' d h' fuel p s pos := by
  rcases (until_readBoxStructure (X := fun t => m t ≠ m' t) (d := d) (fun t ht => Classical.not_not.1 ht) hf hk (h := h) (h' := h')
    (fun hd hx => hh hd (Classical.not_not.1 hx)) fuel p).1 ⟨pos, s, []⟩ _ rfl with hb | ⟨h1, h2⟩
  · exact .inl hb
  · exact .inr (Prod.ext h1 h2)

/-- **C74** — A handler that leaves alone (does not decode or expand) all boxes of types on which the registries differ notices nothing at all, whatever the file
contains. -/
theorem registration_unnoticed (hf : m tFtyp = m' tFtyp) (hk : m tKeys = m' tKeys) {h : Handler S P V}
    (hh : ∀ hd, m hd.info.type ≠ m' hd.info.type → (h hd).Plain) (fuel : Nat) (p : P) :
    readBoxStructure m d h fuel p = readBoxStructure m' d h fuel p :=
  readBoxStructure_same (X := fun t => m t ≠ m' t) (fun _ ht => Classical.not_not.1 ht) hf hk (fun hd _ _ _ hx => hh hd hx) fuel p

/-! ## Extraction -/

/-- A type that is asked for in a path, in a place that is not the last. -/
def TypeAskedInside (paths : List (List BoxType)) (t : BoxType) : Prop := ∃ q ∈ paths, ∃ e ∈ q.dropLast, e = t ∨ e = BoxType.any

/-- A type that is asked for in a path, in any place. -/
def TypeAsked (paths : List (List BoxType)) (t : BoxType) : Prop := ∃ q ∈ paths, ∃ e ∈ q, e = t ∨ e = BoxType.any

theorem prefixMatches_last {pre : List BoxType} {t : BoxType} (ht : t ≠ BoxType.any) : ∀ {q : List BoxType}, prefixMatches (pre ++ [t]) q = true →
    ∃ e, q[pre.length]? = some e ∧ (e = t ∨ e = BoxType.any) := by
  induction pre with
  | nil =>
    intro q h
    match q with
    | [] => simp [prefixMatches] at h
    | e :: q =>
      refine ⟨e, rfl, ?_⟩
      simp only [List.nil_append, prefixMatches] at h
      split at h
      · simp at h
      · rename_i hm
        simp only [BoxType.matchWith, Bool.not_eq_true, Bool.not_eq_false] at hm
        split at hm
        · rename_i ha
          exact .inr (ha.resolve_left ht)
        · exact .inl (of_decide_eq_true hm).symm
  | cons x pre ih =>
    intro q h
    match q with
    | [] => simp [prefixMatches] at h
    | e :: q =>
      simp only [List.cons_append, prefixMatches] at h
      split at h
      · simp at h
      · simpa using ih h

theorem matchPath_fst {paths : List (List BoxType)} {path : List BoxType} (h : (matchPath paths path).1 = true) :
    ∃ q ∈ paths, (compareWith path q).1 = true := by
  have key : ∀ (l : List (List BoxType)) (acc : Bool × Bool),
      (l.foldl (fun acc q => (acc.1 || (compareWith path q).1, acc.2 || (compareWith path q).2)) acc).1 = true →
      acc.1 = true ∨ ∃ q ∈ l, (compareWith path q).1 = true := by
    intro l
    induction l with
    | nil => exact fun acc h => .inl h
    | cons q l ih =>
      intro acc h
      rcases ih _ h with h | ⟨r, hr, h⟩
      · rcases Bool.or_eq_true _ _ ▸ h with h | h
        · exact .inl h
        · exact .inr ⟨q, by simp, h⟩
      · exact .inr ⟨r, by simp [hr], h⟩
  exact (key paths (false, false) h).resolve_left (by simp)

theorem matchPath_snd {paths : List (List BoxType)} {path : List BoxType} (h : (matchPath paths path).2 = true) :
    ∃ q ∈ paths, (compareWith path q).2 = true := by
  have key : ∀ (l : List (List BoxType)) (acc : Bool × Bool),
      (l.foldl (fun acc q => (acc.1 || (compareWith path q).1, acc.2 || (compareWith path q).2)) acc).2 = true →
      acc.2 = true ∨ ∃ q ∈ l, (compareWith path q).2 = true := by
    intro l
    induction l with
    | nil => exact fun acc h => .inl h
    | cons q l ih =>
      intro acc h
      rcases ih _ h with h | ⟨r, hr, h⟩
      · rcases Bool.or_eq_true _ _ ▸ h with h | h
        · exact .inl h
        · exact .inr ⟨q, by simp, h⟩
      · exact .inr ⟨r, by simp [hr], h⟩
  exact (key paths (false, false) h).resolve_left (by simp)

theorem forward_asked {paths : List (List BoxType)} {pre : List BoxType} {t : BoxType} (ht : t ≠ BoxType.any)
    (h : (matchPath paths (pre ++ [t])).1 = true) : TypeAskedInside paths t := by
  obtain ⟨q, hq, h⟩ := matchPath_fst h
  unfold compareWith at h
  split at h
  · simp at h
  split at h
  · simp at h
  split at h
  · rename_i hp hlt
    obtain ⟨e, he, hd⟩ := prefixMatches_last ht (Classical.not_not.1 hp)
    refine ⟨q, hq, e, ?_, hd⟩
    refine List.mem_of_getElem? (i := pre.length) ?_
    rw [List.getElem?_dropLast, if_pos, he]
    simp only [List.length_append, List.length_singleton] at hlt
    omega
  · simp at h

theorem match_asked {paths : List (List BoxType)} {pre : List BoxType} {t : BoxType} (ht : t ≠ BoxType.any)
    (h : (matchPath paths (pre ++ [t])).2 = true) : TypeAsked paths t := by
  obtain ⟨q, hq, h⟩ := matchPath_snd h
  unfold compareWith at h
  split at h
  · simp at h
  split at h
  · simp at h
  rename_i hp
  obtain ⟨e, he, hd⟩ := prefixMatches_last ht (Classical.not_not.1 hp)
  exact ⟨q, hq, e, List.mem_of_getElem? he, hd⟩

/-- The handler of `ExtractBoxes` leaves alone what is not asked for. -/
theorem extract_leaves (below : Bool) (paths : List (List BoxType)) :
    LeavesAlone (fun t => ¬ TypeAskedInside paths t) (if below then 1 else 0) (extractHandler below paths) := by
  intro hd pre hn hp hx
  unfold extractHandler
  simp only []
  split
  · exact trivial
  · rename_i ht
    intro s
    show Prog.Plain (if (matchPath paths (if below then hd.path.drop 1 else hd.path)).1 then _ else _)
    by_cases hm : (matchPath paths (if below then hd.path.drop 1 else hd.path)).1 = true
    · refine absurd ?_ hx
      cases below with
      | false =>
        rw [if_neg (by simp), hp] at hm
        exact forward_asked ht hm
      | true =>
        rw [if_pos rfl, hp] at hm
        obtain ⟨x, pre, rfl⟩ : ∃ x p, pre = x :: p := by
          cases pre with
          | nil => simp at hn
          | cons x p => exact ⟨x, p, rfl⟩
        exact forward_asked ht hm
    · rw [if_neg hm]
      exact trivial

/-- **C74** — What `ExtractBoxes` returns for any file depends only on the registrations of `ftyp`, `keys`, the types asked for in places of the paths that are not
the last, and the type of the parent, if there is one. -/
theorem extraction_local (hf : m tFtyp = m' tFtyp) (hk : m tKeys = m' tKeys) (fuel : Nat) (parent : Option BoxInfo) (paths : List (List BoxType))
    (ha : ∀ t, TypeAskedInside paths t → m t = m' t) (hp : ∀ bi, parent = some bi → m bi.type = m' bi.type) :
    extractBoxes m d fuel parent paths = extractBoxes m' d fuel parent paths := by
  have hX : SameOutside (fun t => m t ≠ m' t) m m' := fun t ht => Classical.not_not.1 ht
  have hl : ∀ below, LeavesAlone (fun t => m t ≠ m' t) (if below then 1 else 0) (extractHandler below paths) :=
    fun below hd pre hn hq hx => extract_leaves below paths hd pre hn hq fun h => hx (ha _ h)
  unfold extractBoxes
  cases parent with
  | none => rw [readBoxStructure_same hX hf hk (hl false)]
  | some bi =>
    have e := readBoxStructureFrom_same hX hf hk (hl true) fuel bi (fun h => h (hp bi rfl)) (d := d)
    funext pos
    show (if paths = [] then _ else if _ then _ else match readBoxStructureFrom m d (extractHandler true paths) fuel bi () _ with
      | (.ok (_, bi'), st) => _ | (.err e, st) => _ | (.panic, st) => _ | (.hang, st) => _) = _
    rw [e ()]
    rfl

theorem extract_keeps (below : Bool) {paths : List (List BoxType)} (hne : ∀ q ∈ paths, q ≠ []) (p : Unit) (bi : BoxInfo) (pre : List BoxType) :
    (extractHandler below paths ⟨p, bi, pre ++ [bi.type]⟩).Keeps (fun l => ∀ bi ∈ l, TypeAsked paths bi.type) := by
  unfold extractHandler
  simp only []
  split
  · exact trivial
  · rename_i ht
    intro l hl
    refine ⟨?_, ?_⟩
    · show ∀ b ∈ (if (matchPath paths (if below then (pre ++ [bi.type]).drop 1 else pre ++ [bi.type])).2 then l ++ [bi] else l), _
      by_cases hm : (matchPath paths (if below then (pre ++ [bi.type]).drop 1 else pre ++ [bi.type])).2 = true
      · rw [if_pos hm]
        intro b hb
        rcases List.mem_append.1 hb with hb | hb
        · exact hl b hb
        · obtain rfl := List.mem_singleton.1 hb
          cases below with
          | false => exact match_asked ht hm
          | true =>
            cases pre with
            | nil =>
              obtain ⟨q, hq, h⟩ := matchPath_snd hm
              have := hne q hq
              cases q with
              | nil => simp at this
              | cons x q => simp [compareWith, prefixMatches] at h
            | cons x pre => exact match_asked ht hm
      · rw [if_neg hm]
        exact hl
    · show Prog.Keeps _ (if (matchPath paths (if below then (pre ++ [bi.type]).drop 1 else pre ++ [bi.type])).1 then _ else _)
      by_cases hm : (matchPath paths (if below then (pre ++ [bi.type]).drop 1 else pre ++ [bi.type])).1 = true
      · rw [if_pos hm]
        intro r
        cases r <;> exact trivial
      · rw [if_neg hm]
        exact trivial

/-- **C74** — The boxes extracted are of types asked for. -/
theorem extracted_asked {fuel : Nat} {parent : Option BoxInfo} {paths : List (List BoxType)} {pos pos' : Nat} {l : List BoxInfo} {par : Option BoxInfo}
    (h : extractBoxes m d fuel parent paths pos = (.ok (l, par), pos')) : ∀ bi ∈ l, TypeAsked paths bi.type := by
  unfold extractBoxes at h
  by_cases hp : paths = []
  · rw [if_pos hp] at h
    simp only [Prod.mk.injEq, Out.ok.injEq] at h
    rw [← h.1.1]
    simp
  rw [if_neg hp] at h
  by_cases he : (paths.any fun q => q.length == 0) = true
  · rw [if_pos he] at h
    simp at h
  rw [if_neg he] at h
  have hne : ∀ q ∈ paths, q ≠ [] := by
    intro q hq e
    exact he (List.any_eq_true.2 ⟨q, hq, by simp [e]⟩)
  cases parent with
  | none =>
    have hk := keeps_readBoxStructure (m := m) (d := d) (extract_keeps false hne) fuel () ⟨pos, [], []⟩ (by simp)
    simp only at h
    cases e : readBoxStructure m d (extractHandler false paths) fuel () ⟨pos, [], []⟩ with
    | mk o st =>
      rw [e] at h hk
      cases o with
      | ok a => simp only [Prod.mk.injEq, Out.ok.injEq] at h; rw [← h.1.1]; exact hk
      | err e => simp at h
      | panic => simp at h
      | hang => simp at h
  | some bi =>
    have hk := keeps_readBoxStructureFrom (m := m) (d := d) (extract_keeps true hne) fuel bi () ⟨pos, [], []⟩ (by simp)
    simp only at h
    cases e : readBoxStructureFrom m d (extractHandler true paths) fuel bi () ⟨pos, [], []⟩ with
    | mk o st =>
      rw [e] at h hk
      cases o with
      | ok a => simp only [Prod.mk.injEq, Out.ok.injEq] at h; rw [← h.1.1]; exact hk
      | err e => simp at h
      | panic => simp at h
      | hang => simp at h

theorem decodeAll_same {ctx : Ctx} : ∀ {l : List BoxInfo}, (∀ bi ∈ l, m bi.type = m' bi.type) → decodeAll m d ctx l = decodeAll m' d ctx l
  | [], _ => rfl
  | bi :: l, h => by
    rw [decodeAll, decodeAll, unmarshalAny_same (h bi (by simp)), decodeAll_same fun b hb => h b (by simp [hb])]

theorem TypeAskedInside.asked {paths : List (List BoxType)} {t : BoxType} (h : TypeAskedInside paths t) : TypeAsked paths t := by
  obtain ⟨q, hq, e, he, ht⟩ := h
  exact ⟨q, hq, e, List.dropLast_subset q he, ht⟩

/-- **C74** — What `ExtractBoxesWithPayload` returns for any file depends only on the registrations of `ftyp`, `keys`, the types asked for, and the type of the
parent, if there is one. -/
theorem extraction_with_payload_local (hf : m tFtyp = m' tFtyp) (hk : m tKeys = m' tKeys) (fuel : Nat) (parent : Option BoxInfo) (paths : List (List BoxType))
    (ha : ∀ t, TypeAsked paths t → m t = m' t) (hp : ∀ bi, parent = some bi → m bi.type = m' bi.type) :
    extractBoxesWithPayload m d fuel parent paths = extractBoxesWithPayload m' d fuel parent paths := by
  funext pos
  unfold extractBoxesWithPayload
  rw [← extraction_local hf hk fuel parent paths (fun t h => ha t h.asked) hp]
  refine bind_congr' fun x s' e => ?_
  obtain ⟨l, par⟩ := x
  exact congrFun (decodeAll_same fun bi hb => ha _ (extracted_asked e bi hb)) s'

/-! ## `Probe` -/

/-- The types `Probe` asks for. -/
def ProbeAsks (t : BoxType) : Prop := TypeAsked probePaths t ∨ TypeAsked trakPaths t ∨ TypeAsked moofPaths t

theorem probeOne_same (ha : ∀ t, ProbeAsks t ∨ t = tKeys → m t = m' t) (fuel : Nat) (bi : BoxInfo) (seen : Bool) (info : ProbeInfo) :
    probeOne m d fuel bi seen info = probeOne m' d fuel bi seen info := by
  have hf : m tFtyp = m' tFtyp := ha _ (.inl (.inl ⟨_, List.mem_cons_self, _, List.mem_singleton.2 rfl, .inl rfl⟩))
  have hk : m tKeys = m' tKeys := ha _ (.inr rfl)
  have ht : bi.type = tTrak → probeTrak m d fuel bi = probeTrak m' d fuel bi := by
    intro e
    unfold probeTrak
    rw [extraction_with_payload_local hf hk fuel (some bi) trakPaths (fun t h => ha t (.inl (.inr (.inl h)))) ?_]
    rintro _ ⟨⟩
    rw [e]
    exact ha _ (.inl (.inl ⟨[Mp4.tMoov, tTrak], by simp [probePaths], tTrak, by simp, .inl rfl⟩))
  have hm : bi.type = tMoof → probeMoof m d fuel bi = probeMoof m' d fuel bi := by
    intro e
    unfold probeMoof
    rw [extraction_with_payload_local hf hk fuel (some bi) moofPaths (fun t h => ha t (.inl (.inr (.inr h)))) ?_]
    rintro _ ⟨⟩
    rw [e]
    exact ha _ (.inl (.inl ⟨[tMoof], by simp [probePaths], tMoof, by simp, .inl rfl⟩))
  unfold probeOne
  split
  · rfl
  split
  · rfl
  split
  · rfl
  split
  · rename_i e; rw [ht e]
  split
  · rename_i e; rw [hm e]
  rfl

theorem probeLoop_same (ha : ∀ t, ProbeAsks t ∨ t = tKeys → m t = m' t) (fuel : Nat) :
    ∀ (l : List BoxInfo) (seen : Bool) (info : ProbeInfo), probeLoop m d fuel l seen info = probeLoop m' d fuel l seen info
  | [], _, _ => rfl
  | bi :: l, seen, info => by
    rw [probeLoop, probeLoop, probeOne_same ha]
    congr 1; funext x
    obtain ⟨a, b⟩ := x
    exact probeLoop_same ha fuel l a b

/-- **C74** — What `Probe` reports for any file depends only on the registrations of the types it asks for, and of `keys`. -/
theorem probe_local (ha : ∀ t, ProbeAsks t ∨ t = tKeys → m t = m' t) (fuel : Nat) : probe m d fuel = probe m' d fuel := by
  unfold probe
  rw [extraction_local (ha _ (.inl (.inl ⟨_, List.mem_cons_self, _, List.mem_singleton.2 rfl, .inl rfl⟩))) (ha _ (.inr rfl)) fuel none probePaths
    (fun t h => ha t (.inl (.inl h.asked))) (by simp)]
  congr 1; funext x
  exact probeLoop_same ha fuel x.1 false {}

/-- The types `Probe` asks for, as a list. -/
def probeTypes : List BoxType := (probePaths ++ trakPaths ++ moofPaths).flatten

theorem probeAsks_iff {t : BoxType} : ProbeAsks t ↔ t ∈ probeTypes := by
  have key : ∀ paths : List (List BoxType), BoxType.any ∉ paths.flatten → (TypeAsked paths t ↔ t ∈ paths.flatten) := by
    intro paths hn
    rw [List.mem_flatten]
    constructor
    · rintro ⟨q, hq, e, he, rfl | rfl⟩
      · exact ⟨q, hq, he⟩
      · exact absurd (List.mem_flatten.2 ⟨q, hq, he⟩) hn
    · rintro ⟨q, hq, ht⟩
      exact ⟨q, hq, t, ht, .inl rfl⟩
  unfold ProbeAsks probeTypes
  rw [key _ (by decide), key _ (by decide), key _ (by decide), List.flatten_append, List.flatten_append, List.mem_append, List.mem_append, or_assoc]

/-! ## The caller's own registrations -/

theorem registered_other {us : List (BoxType × BoxDef)} {t : BoxType} (h : ∀ u ∈ us, u.1 ≠ t) : registered us t = BoxMap.std t := by
  unfold registered BoxMap.std BoxMap.ofRegs
  rw [List.foldl_append]
  generalize List.foldl (fun (m : BoxMap) r => m.add r.1 r.2) (fun _ => []) Cat.registry = m
  induction us generalizing m with
  | nil => rfl
  | cons u us ih =>
    rw [List.foldl_cons, ih (fun v hv => h v (by simp [hv]))]
    unfold BoxMap.add
    rw [if_neg (fun e => h u (by simp) e.symm)]

/-- **C74** — A library or program that registers definitions, whatever they are, does not change what any traversal does (in any code of the same process) unless
the handler is called for a box of one of the types. -/
theorem registering_is_local {us : List (BoxType × BoxDef)} (hf : ∀ u ∈ us, u.1 ≠ tFtyp ∧ u.1 ≠ tKeys) (h : Handler S P V) (fuel : Nat) (p : P) (s : S)
    (pos : Nat) :
    (∃ parent path bi, Ev.enter parent path bi ∈ (traverse d h fuel p s pos).2.log ∧ ∃ u ∈ us, u.1 = bi.type) ∨
    Reg.traverse (registered us) d h fuel p s pos = traverse d h fuel p s pos := by
  have hr : ∀ t, (∀ u ∈ us, u.1 ≠ t) → BoxMap.std t = registered us t := fun t ht => (registered_other ht).symm
  rcases registration_local (d := d) (hr tFtyp fun u hu => (hf u hu).1) (hr tKeys fun u hu => (hf u hu).2) (h := h) (h' := h) (fun _ _ => rfl) fuel p s pos with
    ⟨a, b, c, h1, h2⟩ | e
  · refine .inl ⟨a, b, c, h1, ?_⟩
    false_or_by_contra
    rename_i hn
    exact h2 (hr _ fun u hu e => hn ⟨u, hu, e⟩)
  · exact .inr e.symm

/-- **C74** — Nor does it change what `Probe` reports, for any file at all, if the types are none of those in the paths of `Probe`, and not `keys`. -/
theorem registering_keeps_probe {us : List (BoxType × BoxDef)} (hf : ∀ u ∈ us, u.1 ∉ probeTypes ∧ u.1 ≠ tKeys) (fuel : Nat) :
    probe (registered us) d fuel = probe BoxMap.std d fuel := by
  refine probe_local (fun t ht => registered_other fun u hu e => ?_) fuel
  rcases ht with ht | ht
  · exact (hf u hu).1 (e ▸ probeAsks_iff.1 ht)
  · exact (hf u hu).2 (e.trans ht)

/-- The box of the README, as it is there (not `SafeDef`, C70), does not disturb `Probe`. -/
example (fuel : Nat) : probe (registered [(tXxxx, bdXxxx)]) d fuel = probe BoxMap.std d fuel :=
  registering_keeps_probe (by simp only [List.mem_singleton, forall_eq]; decide) fuel

/-- Nor the extraction of the `trak` boxes, though it may be in the file. -/
example (fuel : Nat) : extractBoxes (registered [(tXxxx, bdXxxx)]) d fuel none [[tMoov, tTrak]] = extractBoxes BoxMap.std d fuel none [[tMoov, tTrak]] := by
  have hr : ∀ t, t ≠ tXxxx → registered [(tXxxx, bdXxxx)] t = BoxMap.std t := fun t ht => registered_other (by simp only [List.mem_singleton, forall_eq]; exact ht.symm)
  refine extraction_local (hr _ (by decide)) (hr _ (by decide)) fuel none _ ?_ (by simp)
  rintro t ⟨q, hq, e, he, rfl | rfl⟩
  · obtain rfl := List.mem_singleton.1 hq
    obtain rfl := List.mem_singleton.1 he
    exact hr _ (by decide)
  · obtain rfl := List.mem_singleton.1 hq
    exact absurd (List.mem_singleton.1 he) (by decide)

/-- With the element that matches any type in an inner place the registration does matter: the traversal panics in the box of the README. -/
theorem any_inside_sees_registration : ∃ d, (extractBoxes (registered [(tXxxx, bdXxxx)]) d 5 none [[BoxType.any, tMoov]] 0).1 = .panic ∧
    (extractBoxes BoxMap.std d 5 none [[BoxType.any, tMoov]] 0).1 ≠ .panic := ⟨xxxxFile, by decide +kernel, by decide +kernel⟩

/-- The two cases of `registering_is_local`: the file has such a box, and it has none. -/
example : Reg.traverse (registered exRegs) xxxxFile (expandKnown (registered exRegs)) 5 () () ≠ traverse xxxxFile (expandKnown BoxMap.std) 5 () () := by
  intro e
  have := congrArg (fun x => offsetsVisited x.2.log) e
  revert this
  decide +kernel

example (h : Handler S P V) (p : P) (s : S) (fuel : Nat) :
    (∃ parent path bi, Ev.enter parent path bi ∈ (traverse xxxxFile h fuel p s).2.log ∧ bi.type = tXxxx) ∨
    Reg.traverse (registered exRegs) xxxxFile h fuel p s = traverse xxxxFile h fuel p s := by
  rcases registering_is_local (us := exRegs) (d := xxxxFile) (by simp only [exRegs, List.mem_singleton, forall_eq]; decide) h fuel p s 0 with
    ⟨a, b, c, h1, u, hu, e⟩ | e
  · simp only [exRegs, List.mem_singleton] at hu
    subst hu
    exact .inl ⟨a, b, c, h1, e.symm⟩
  · exact .inr e

example : (traverse (xxxxFile.drop 19) (expandKnown BoxMap.std) 5 () ()).2.log.all (fun e => match e with | .enter _ _ bi => bi.type ≠ tXxxx | _ => true) = true ∧
    offsetsVisited (traverse (xxxxFile.drop 19) (expandKnown BoxMap.std) 5 () ()).2.log = [(0, 1)] := by decide +kernel

end Mp4.Props
