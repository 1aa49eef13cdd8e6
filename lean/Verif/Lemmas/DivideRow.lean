import Verif.Spec.Divide
import Verif.Props.ProbeSegment

/-! # A row of boxes that `mp4tool divide` has handled with success -/

namespace Mp4.Tool

open Mp4.Props

section
variable {d : Bytes} {path : List BoxType} {bi : BoxInfo} {children : Nat → Unit → TM DivSt (Option Sizes) (List (Option Sizes))} {fuel : Nat}
  {ts : List DTrack}

/-! ## Names -/

theorem named_init : Named initNames bi ↔ bi.type ∈ initTypes := by
  unfold Named
  rw [show initNames.map fourcc = initTypes by decide]

theorem named_one {s : String} {t : BoxType} (h : fourcc s = t) : Named [s] bi ↔ bi.type = t := by
  simp [Named, h]

theorem named_moof : Named ["moof"] bi ↔ bi.type = tMoof := named_one (by decide)
theorem named_mdat : Named ["mdat"] bi ↔ bi.type = tMdat := named_one (by decide)
theorem named_trak : Named ["trak"] bi ↔ bi.type = tTrak := named_one (by decide)

/-! ## Lists of tracks -/

theorem Sep.ne {l : List DTrack} (hs : Sep l) {t u : DTrack} (ht : t ∈ l) (hu : u ∈ l) : t = u ∨ (t.id ≠ u.id ∧ t.kind ≠ u.kind) := by
  induction l with
  | nil => cases ht
  | cons a l ih =>
    obtain ⟨h1, h2⟩ := List.pairwise_cons.1 hs
    rcases List.mem_cons.1 ht with rfl | ht'
    · rcases List.mem_cons.1 hu with rfl | hu
      · exact .inl rfl
      · exact .inr (h1 u hu)
    · rcases List.mem_cons.1 hu with rfl | hu
      · exact .inr ⟨fun e => (h1 t ht').1 e.symm, fun e => (h1 t ht').2 e.symm⟩
      · exact ih h2 ht' hu

theorem Sep.id_eq {l : List DTrack} (hs : Sep l) {t u : DTrack} (ht : t ∈ l) (hu : u ∈ l) (h : t.id = u.id) : t = u := by
  rcases hs.ne ht hu with h' | h'
  · exact h'
  · exact absurd h h'.1

theorem sizes_of {l : List DTrack} {z : DTrack → Nat} (hs : Sep l) {t : DTrack} (ht : t ∈ l) : Sizes.of (l.map fun t => (t.id, z t)) t.id = z t := by
  induction l with
  | nil => cases ht
  | cons a l ih =>
    obtain ⟨h1, h2⟩ := List.pairwise_cons.1 hs
    unfold Sizes.of
    rw [List.map_cons, List.find?_cons]
    rcases List.mem_cons.1 ht with rfl | ht
    · simp
    · have : (a.id == t.id) = false := by simpa using (h1 t ht).1
      simp only [this]
      exact ih h2 ht

theorem sizes_other {l : List DTrack} {z : DTrack → Nat} {id : Nat} (h : ∀ t ∈ l, t.id ≠ id) : Sizes.of (l.map fun t => (t.id, z t)) id = 0 := by
  unfold Sizes.of
  rw [List.find?_eq_none.2]
  · rfl
  · intro x hx
    obtain ⟨t, ht, rfl⟩ := List.mem_map.1 hx
    simpa using h t ht

theorem Grew.trans {c c' : DTrack → Bytes} {s s1 s2 : DivSt} (h : Grew ts c s s1) (h2 : Grew ts c' s1 s2) : Grew ts (fun t => c t ++ c' t) s s2 :=
  ⟨fun t ht => by rw [h2.mine t ht, h.mine t ht, List.append_assoc], fun u hu => (h2.others u hu).trans (h.others u hu), h.same.trans h2.same⟩

theorem Grew.refl (s : DivSt) : Grew ts (fun _ => []) s s := ⟨fun t _ => by simp, fun _ _ => rfl, .refl s⟩

theorem Grew.congr {c c' : DTrack → Bytes} {s s1 : DivSt} (h : Grew ts c s s1) (hc : ∀ t ∈ ts, c t = c' t) : Grew ts c' s s1 :=
  ⟨fun t ht => by rw [h.mine t ht, hc t ht], h.others, h.same⟩

theorem Grew.sel (hs : Sep ts) {p : DTrack → Bool} {b : Bytes} {s s2 : DivSt} (h : Grew (ts.filter p) (fun _ => b) s s2) :
    Grew ts (fun t => if p t then b else []) s s2 := by
  refine ⟨fun t ht => ?_, fun u hu => h.others u fun v hv => hu v (List.mem_filter.1 hv).1, h.same⟩
  by_cases hp : p t = true
  · rw [if_pos hp]
    exact h.mine t (List.mem_filter.2 ⟨ht, hp⟩)
  · rw [if_neg hp, List.append_nil]
    refine h.others t fun v hv => ?_
    obtain ⟨h1, h2⟩ := List.mem_filter.1 hv
    rcases hs.ne ht h1 with rfl | h'
    · exact absurd h2 hp
    · exact h'

/-! ## What the fragments amount to, box by box -/

def addLast : List (Nat × Bytes) → Bytes → List (Nat × Bytes)
  | [], _ => []
  | [x], b => [(x.1, x.2 ++ b)]
  | x :: y :: l, b => x :: addLast (y :: l) b

theorem addLast_append (l : List (Nat × Bytes)) (x : Nat × Bytes) (b : Bytes) : addLast (l ++ [x]) b = l ++ [(x.1, x.2 ++ b)] := by
  induction l with
  | nil => rfl
  | cons y l ih =>
    cases l with
    | nil => rfl
    | cons z l => exact congrArg (y :: ·) ih

theorem addLast_nil (l : List (Nat × Bytes)) : addLast l [] = l := by
  rcases List.eq_nil_or_concat l with rfl | ⟨l, x, rfl⟩
  · rfl
  · rw [List.concat_eq_append, addLast_append]; simp

theorem addLast_twice (l : List (Nat × Bytes)) (a b : Bytes) : addLast (addLast l a) b = addLast l (a ++ b) := by
  rcases List.eq_nil_or_concat l with rfl | ⟨l, x, rfl⟩
  · rfl
  · rw [List.concat_eq_append, addLast_append, addLast_append, addLast_append]; simp

/-- the current track, and the segments of the track `t` -/
def mediaStep (d : Bytes) (fuel : Nat) (t : DTrack) (x : Nat × List (Nat × Bytes)) (bi : BoxInfo) : Nat × List (Nat × Bytes) :=
  if Named ["moof"] bi then
    match trackIn d fuel ["traf", "tfhd"] bi with
    | some id => (id, if id = t.id then x.2 ++ [(fragTicks d fuel bi, rawBytes d bi)] else x.2)
    | none => x
  else if Named ["mdat"] bi then (x.1, if x.1 = t.id then addLast x.2 (rawBytes d bi) else x.2) else x

/-- what is noted about the box for the track `t` -/
def rateStep (t : DTrack) (x : Nat × List (Nat × Bytes)) (bi : BoxInfo) : List (Nat × Nat) :=
  if Named ["mdat"] bi ∧ x.1 = t.id ∧ x.2 ≠ [] then [(bi.size, lastTicks x.2)] else []

/-- what is noted about a row of boxes -/
def ratesFrom (d : Bytes) (fuel : Nat) (t : DTrack) : Nat × List (Nat × Bytes) → List BoxInfo → List (Nat × Nat)
  | _, [] => []
  | x, bi :: l => rateStep t x bi ++ ratesFrom d fuel t (mediaStep d fuel t x bi) l

theorem media_segments (t : DTrack) : ∀ (l : List BoxInfo) (c : Nat) (segs : List (Nat × Bytes)),
    (∀ b ∈ l, Named ["moof"] b → trackIn d fuel ["traf", "tfhd"] b ≠ none) →
    (l.foldl (mediaStep d fuel t) (c, segs)).2 =
      (if c = t.id then addLast segs ((((l.takeWhile fun b => ¬ Named ["moof"] b).filter fun b => Named ["mdat"] b).map (rawBytes d)).flatten) else segs) ++
        segments d fuel t l
  | [], c, segs, _ => by
    simp only [List.foldl_nil, List.takeWhile_nil, List.filter_nil, List.map_nil, List.flatten_nil, addLast_nil]
    unfold segments fragments
    simp
  | b :: l, c, segs, h => by
    rw [List.foldl_cons]
    have hl : ∀ b ∈ l, Named ["moof"] b → trackIn d fuel ["traf", "tfhd"] b ≠ none := fun x hx => h x (List.mem_cons_of_mem _ hx)
    by_cases h1 : Named ["moof"] b
    · cases hid : trackIn d fuel ["traf", "tfhd"] b with
      | none => exact absurd hid (h b (by simp) h1)
      | some id =>
        have e : mediaStep d fuel t (c, segs) b = (id, if id = t.id then segs ++ [(fragTicks d fuel b, rawBytes d b)] else segs) := by
          unfold mediaStep
          rw [if_pos h1, hid]
        rw [e, media_segments t l _ _ hl]
        rw [List.takeWhile_cons_of_neg (by simpa using h1)]
        simp only [List.filter_nil, List.map_nil, List.flatten_nil, addLast_nil, ite_self]
        unfold segments
        conv => rhs; rw [fragments, if_pos h1]
        by_cases h2 : id = t.id
        · subst h2
          rw [if_pos rfl, if_pos rfl, addLast_append, List.filter_cons_of_pos (by simp [hid])]
          simp
        · rw [if_neg h2, if_neg h2, List.filter_cons_of_neg (by simp [hid, h2])]
    · have hseg : segments d fuel t (b :: l) = segments d fuel t l := by
        unfold segments
        rw [fragments, if_neg h1]
      rw [hseg, List.takeWhile_cons_of_pos (by simpa using h1)]
      by_cases h2 : Named ["mdat"] b
      · have e : mediaStep d fuel t (c, segs) b = (c, if c = t.id then addLast segs (rawBytes d b) else segs) := by
          unfold mediaStep
          rw [if_neg h1, if_pos h2]
        rw [e, media_segments t l _ _ hl, List.filter_cons_of_pos (by simpa using h2)]
        by_cases h3 : c = t.id
        · rw [if_pos h3, if_pos h3, if_pos h3, addLast_twice]
          simp
        · rw [if_neg h3, if_neg h3, if_neg h3]
      · have e : mediaStep d fuel t (c, segs) b = (c, segs) := by
          unfold mediaStep
          rw [if_neg h1, if_neg h2]
        rw [e, media_segments t l _ _ hl, List.filter_cons_of_neg (by simpa using h2)]

theorem lastTicks_addLast (l : List (Nat × Bytes)) (b : Bytes) : lastTicks (addLast l b) = lastTicks l := by
  rcases List.eq_nil_or_concat l with rfl | ⟨l, x, rfl⟩
  · rfl
  · rw [List.concat_eq_append, addLast_append]; simp [lastTicks]

theorem media_rates (t : DTrack) : ∀ (l : List BoxInfo) (c : Nat) (segs : List (Nat × Bytes)),
    (∀ b ∈ l, Named ["moof"] b → trackIn d fuel ["traf", "tfhd"] b ≠ none) →
    ratesFrom d fuel t (c, segs) l =
      (if c = t.id ∧ segs ≠ [] then ((l.takeWhile fun b => ¬ Named ["moof"] b).filter fun b => Named ["mdat"] b).map fun b => (b.size, lastTicks segs) else []) ++
        mdatRates d fuel t l
  | [], c, segs, _ => by
    unfold mdatRates fragments
    simp [ratesFrom]
  | b :: l, c, segs, h => by
    rw [ratesFrom]
    have hl : ∀ b ∈ l, Named ["moof"] b → trackIn d fuel ["traf", "tfhd"] b ≠ none := fun x hx => h x (List.mem_cons_of_mem _ hx)
    by_cases h1 : Named ["moof"] b
    · have hr : rateStep t (c, segs) b = [] := if_neg fun h' => by
        have e1 := named_moof.1 h1
        have e2 := named_mdat.1 h'.1
        rw [e1] at e2
        exact absurd e2 (by decide)
      cases hid : trackIn d fuel ["traf", "tfhd"] b with
      | none => exact absurd hid (h b (by simp) h1)
      | some id =>
        have e : mediaStep d fuel t (c, segs) b = (id, if id = t.id then segs ++ [(fragTicks d fuel b, rawBytes d b)] else segs) := by
          unfold mediaStep
          rw [if_pos h1, hid]
        rw [e, hr, media_rates t l _ _ hl]
        rw [List.takeWhile_cons_of_neg (by simpa using h1)]
        simp only [List.filter_nil, List.map_nil, ite_self, List.nil_append]
        unfold mdatRates
        conv => rhs; rw [fragments, if_pos h1]
        by_cases h2 : id = t.id
        · subst h2
          rw [if_pos rfl, if_pos ⟨rfl, by simp⟩, List.filter_cons_of_pos (by simp [hid])]
          simp [lastTicks]
        · rw [if_neg (fun h' => h2 h'.1), List.filter_cons_of_neg (by simp [hid, h2]), List.nil_append]
    · have hseg : mdatRates d fuel t (b :: l) = mdatRates d fuel t l := by
        unfold mdatRates
        rw [fragments, if_neg h1]
      rw [hseg, List.takeWhile_cons_of_pos (by simpa using h1)]
      by_cases h2 : Named ["mdat"] b
      · have e : mediaStep d fuel t (c, segs) b = (c, if c = t.id then addLast segs (rawBytes d b) else segs) := by
          unfold mediaStep
          rw [if_neg h1, if_pos h2]
        rw [e, media_rates t l _ _ hl, List.filter_cons_of_pos (by simpa using h2), rateStep]
        have hadd : addLast segs (rawBytes d b) ≠ [] ↔ segs ≠ [] := by
          rcases List.eq_nil_or_concat segs with rfl | ⟨l, x, rfl⟩
          · exact Iff.rfl
          · rw [List.concat_eq_append, addLast_append]; simp
        by_cases h3 : c = t.id ∧ segs ≠ []
        · rw [if_pos h3.1, if_pos ⟨h2, h3⟩, if_pos ⟨h3.1, hadd.2 h3.2⟩, if_pos h3, lastTicks_addLast]
          simp
        · rw [if_neg (show ¬ (Named ["mdat"] b ∧ c = t.id ∧ segs ≠ []) from fun h' => h3 h'.2), if_neg h3, if_neg (fun h' => h3 ?_)]
          · rfl
          · obtain ⟨h4, h5⟩ := h'
            rw [if_pos h4] at h5
            exact ⟨h4, hadd.1 h5⟩
      · have e : mediaStep d fuel t (c, segs) b = (c, segs) := by
          unfold mediaStep
          rw [if_neg h1, if_neg h2]
        rw [e, media_rates t l _ _ hl, List.filter_cons_of_neg (by simpa using h2), rateStep, if_neg (fun h' => h2 h'.1)]
        rfl

/-! ## One box -/

theorem below_eq {q : List String} {q' : List BoxType} (hq : q.map fourcc = q') {l : List (BoxInfo × BoxVal)}
    (h : (extractBoxWithPayload BoxMap.std d fuel (some bi) q' 0).1 = .ok l) : below d fuel q bi = l.map (·.2.sv) := by
  unfold below
  rw [hq, h]

theorem ticks_eq (tfhd trun : SV) : fragDuration tfhd trun =
    (if trun.checkFlag 0x100 then ((trun.structs "Entries").map fun e => e.uint "SampleDuration").sum
    else (trun.structs "Entries").length * (if tfhd.checkFlag 8 then tfhd.uint "DefaultSampleDuration" else 0)) % 2 ^ 32 := by
  unfold fragDuration
  rw [sum32_eq]
  show _ % 2 ^ 32 = _
  congr 1
  cases h : trun.checkFlag 0x100 with
  | true => simp
  | false =>
    simp only [Bool.false_eq_true, if_false]
    generalize (if tfhd.checkFlag 8 = true then tfhd.uint "DefaultSampleDuration" else 0) = n
    generalize trun.structs "Entries" = l
    induction l with
    | nil => simp
    | cons x l ih => simp only [List.map_cons, List.sum_cons, ih, List.length_cons, Nat.add_mul]; omega

theorem assert_sv {v : BoxVal} {name : String} {sv : SV} (h : v.assert name = some sv) : sv = v.sv := by
  unfold BoxVal.assert at h
  split at h
  · exact (Option.some.inj h).symm
  · cases h

theorem aborts_no {a : Abort} {co : Nat} {st st2 : TSt DivSt (Option Sizes)} {v : Option Sizes}
    (h : runProg BoxMap.std d path bi children (aborts a) co st = (.ok v, st2)) : False := by
  unfold aborts at h
  rw [runProg, M.bind_ok (M.get_run _), runProg, M.bind_ok (M.modify_run _ _)] at h
  cases h

/-- a box other than `moov` that is not of a fragment -/
structure InitLeaf (d : Bytes) (fuel : Nat) (ts : List DTrack) (bi : BoxInfo) (v : Option Sizes) (s s2 : DivSt) : Prop where
  grew : Grew ts (fun t => if Belongs d fuel t bi then rawBytes d bi else []) s s2
  size : ∀ t ∈ ts, (v.getD []).of t.id = (if Belongs d fuel t bi then rawBytes d bi else []).length

theorem initLeaf_of (hd : d.length ≤ maxAlloc) (hs : Sep ts) (hb : HeaderAt d bi) (hm : bi.type ≠ tMoov) (hf : Fair bi) {p : DTrack → Bool}
    (hp : ∀ t ∈ ts, p t = true ↔ Belongs d fuel t bi) {co : Nat} {st st2 : TSt DivSt (Option Sizes)} {v : Option Sizes}
    (hr : runProg BoxMap.std d path bi children (initBox bi (ts.filter p)) co st = (.ok v, st2)) : InitLeaf d fuel ts bi v st.user st2.user := by
  obtain ⟨h1, h2, h3⟩ := initBox_leaf hd hb hf hm (hs.filter p) hr
  refine ⟨(h3.sel hs).congr fun t ht => ?_, fun t ht => ?_⟩
  · by_cases h : p t = true
    · rw [if_pos h, if_pos ((hp t ht).1 h)]; rfl
    · rw [if_neg h, if_neg fun h' => h ((hp t ht).2 h')]
  · rw [h2, Option.getD_some]
    by_cases h : p t = true
    · have hm := List.mem_filter.2 ⟨ht, h⟩
      rw [if_pos ((hp t ht).1 h), sizes_of (z := fun _ => bi.size) (hs.filter p) hm]
      exact (h1 (List.ne_nil_of_mem hm)).symm
    · rw [if_neg fun h' => h ((hp t ht).2 h')]
      refine sizes_other (z := fun _ => bi.size) fun u hu e => ?_
      obtain ⟨h4, h5⟩ := List.mem_filter.1 hu
      rw [hs.id_eq h4 ht e] at h5
      exact h h5

theorem trackBy_some {id : Nat} {t : DTrack} (h : trackBy ts id = some t) : t ∈ ts ∧ t.id = id := by
  unfold trackBy at h
  exact ⟨List.mem_of_find?_eq_some h, by simpa using List.find?_some h⟩

theorem trackBy_none {id : Nat} (h : trackBy ts id = none) {t : DTrack} (ht : t ∈ ts) : id ≠ t.id := by
  unfold trackBy at h
  have := List.find?_eq_none.1 h t ht
  intro e
  exact this (by simp [e])

/-- a box of a fragment -/
def MediaLeaf (d : Bytes) (fuel : Nat) (ts : List DTrack) (bi : BoxInfo) (s s2 : DivSt) : Prop :=
  ∀ t ∈ ts, ∀ a, Holds t s a →
    Holds t s2 ⟨a.init, (mediaStep d fuel t (s.curr, a.segs) bi).2, a.rates ++ rateStep t (s.curr, a.segs) bi⟩ ∧ s2.curr = (mediaStep d fuel t (s.curr, a.segs) bi).1

theorem writes_addLast {t : DTrack} {s : DivSt} {I : Bytes} {segs : List (Nat × Bytes)} {R : List (Nat × Nat)} (h : Holds t s ⟨I, segs, R⟩) (hne : segs ≠ []) (b b' : Bytes) :
    Holds t (segWrite t b' (segWrite t b s)) ⟨I, addLast segs (b ++ b'), R⟩ := by
  rcases List.eq_nil_or_concat segs with e | ⟨l, x, e⟩
  · exact absurd e hne
  · rw [List.concat_eq_append] at e
    subst e
    have := (h.write b).write b'
    rw [addLast_append]
    rw [List.append_assoc] at this
    exact this

theorem mdat_step (hd : d.length ≤ maxAlloc) (hs : Sep ts) (hb : HeaderAt d bi) (ht : bi.type = tMdat) {co : Nat} {st st2 : TSt DivSt (Option Sizes)} {v : Option Sizes}
    (hr : runProg BoxMap.std d path bi children (mdatBox ts bi) co st = (.ok v, st2)) :
    v = none ∧ (Fair bi → MediaLeaf d fuel ts bi st.user st2.user) := by
  have n1 : ¬ Named ["moof"] bi := by rw [named_moof, ht]; decide
  have n2 : Named ["mdat"] bi := by rw [named_mdat, ht]
  unfold mdatBox at hr
  rw [runProg, M.bind_ok (M.get_run _)] at hr
  cases h : trackBy ts st.user.curr with
  | none =>
    rw [h] at hr
    cases hr
    refine ⟨rfl, fun _ t htt a ha => ?_⟩
    unfold mediaStep
    rw [if_neg n1, if_pos n2, if_neg (trackBy_none h htt), rateStep, if_neg (fun h' => trackBy_none h htt h'.2.1), List.append_nil]
    exact ⟨ha, rfl⟩
  | some u =>
    rw [h] at hr
    simp only at hr
    obtain ⟨hu, hid⟩ := trackBy_some h
    split at hr
    · exact (aborts_no hr).elim
    · next hdur =>
      rw [runProg, M.bind_ok (M.modify_run _ _)] at hr
      refine ⟨copyMedia_none hr, fun hf t htt a ha => ?_⟩
      obtain ⟨-, -, he⟩ := copyMedia_inv hd hb hf hr
      unfold mediaStep
      rw [if_neg n1, if_pos n2]
      refine ⟨?_, by rw [he]; rfl⟩
      rw [he]
      rcases hs.ne htt hu with e | e
      · subst e
        have hne : a.segs ≠ [] := fun e => hdur (by rw [ha.durs, e]; rfl)
        rw [if_pos hid.symm, show rawBytes d bi = boxBytes d bi from rfl, boxBytes_eq hb hf, rateStep,
          if_pos ⟨n2, hid.symm, hne⟩]
        exact writes_addLast (ha.rate bi) hne _ _
      · have hne : ¬ st.user.curr = t.id := by rw [← hid]; exact fun h' => e.1 h'.symm
        rw [if_neg hne, rateStep, if_neg (fun h' => hne h'.2.1), List.append_nil]
        exact ((ha.otherRate e bi).other e _).other e _

theorem moof_step (hd : d.length ≤ maxAlloc) (hs : Sep ts) (hb : HeaderAt d bi) (ht : bi.type = tMoof) {co : Nat} {st st2 : TSt DivSt (Option Sizes)} {v : Option Sizes}
    (hr : runProg BoxMap.std d path bi children (extracting d fuel bi [tTraf, tTfhd] (moofHead ts d fuel bi)) co st = (.ok v, st2)) :
    v = none ∧ trackIn d fuel ["traf", "tfhd"] bi ≠ none ∧ (Fair bi → MediaLeaf d fuel ts bi st.user st2.user) := by
  have n1 : Named ["moof"] bi := by rw [named_moof, ht]
  obtain ⟨l, p, he, hr⟩ := extracting_inv hr
  have hbl := below_eq (q := ["traf", "tfhd"]) (by decide) he
  match l, hr, hbl with
  | [], hr, _ => cases hr
  | _ :: _ :: _, hr, _ => cases hr
  | [(tb, tv)], hr, hbl =>
    rw [moofHead] at hr
    cases hx : tv.assert "Tfhd" with
    | none => rw [hx] at hr; exact (aborts_no hr).elim
    | some tfhd =>
      rw [hx] at hr
      have htr : trackIn d fuel ["traf", "tfhd"] bi = some (tfhd.uint "TrackID") := by
        unfold trackIn
        rw [hbl, assert_sv hx]
        rfl
      simp only at hr
      rw [runProg, M.bind_ok (M.get_run _), runProg, M.bind_ok (M.modify_run _ _)] at hr
      have hstep : ∀ t x, mediaStep d fuel t x bi =
          (tfhd.uint "TrackID", if tfhd.uint "TrackID" = t.id then x.2 ++ [(fragTicks d fuel bi, rawBytes d bi)] else x.2) := fun t x => by
        unfold mediaStep
        rw [if_pos n1, htr]
      have hrate : ∀ t x, rateStep t x bi = [] := fun t x => if_neg fun h' => by
        have := named_mdat.1 h'.1
        rw [ht] at this
        exact absurd this (by decide)
      cases h : trackBy ts (tfhd.uint "TrackID") with
      | none =>
        rw [h] at hr
        cases hr
        refine ⟨rfl, by rw [htr]; simp, fun _ t htt a ha => ?_⟩
        rw [hstep, if_neg (trackBy_none h htt), hrate, List.append_nil]
        exact ⟨⟨ha.init, ha.durs, ha.segs, ha.last, ha.rates⟩, rfl⟩
      | some u =>
        rw [h] at hr
        simp only at hr
        obtain ⟨hu, hid⟩ := trackBy_some h
        obtain ⟨l2, p2, he2, hr⟩ := extracting_inv hr
        have hbl2 := below_eq (q := ["traf", "trun"]) (by decide) he2
        match l2, hr, hbl2 with
        | [], hr, _ => exact (aborts_no hr).elim
        | (rb, rv) :: l2, hr, hbl2 =>
          rw [moofRun] at hr
          cases hy : rv.assert "Trun" with
          | none => rw [hy] at hr; exact (aborts_no hr).elim
          | some trun =>
            rw [hy] at hr
            simp only at hr
            rw [runProg, M.bind_ok (M.get_run _), runProg, M.bind_ok (M.modify_run _ _)] at hr
            refine ⟨copyMedia_none hr, by rw [htr]; simp, fun hf t htt a ha => ?_⟩
            have hticks : fragTicks d fuel bi = fragDuration tfhd trun := by
              unfold fragTicks
              rw [hbl, hbl2, ticks_eq, assert_sv hx, assert_sv hy]
              rfl
            obtain ⟨-, -, he⟩ := copyMedia_inv hd hb hf hr
            rw [hstep, hrate, List.append_nil]
            refine ⟨?_, by rw [he]; rfl⟩
            rw [he]
            have ha' : Holds t { st.user with curr := tfhd.uint "TrackID" } a := ⟨ha.init, ha.durs, ha.segs, ha.last, ha.rates⟩
            rcases hs.ne htt hu with e | e
            · subst e
              rw [if_pos hid.symm, show rawBytes d bi = boxBytes d bi from rfl, boxBytes_eq hb hf, hticks]
              have := writes_addLast (ha'.next (fragDuration tfhd trun)) (by simp) (boxInfoBytes bi) (bodyOf d bi)
              rw [addLast_append] at this
              exact this
            · rw [if_neg (by rw [← hid]; exact fun h' => e.1 h'.symm)]
              exact ((ha'.otherNext e _).other e _).other e _

theorem leaf_step (hd : d.length ≤ maxAlloc) (hs : Sep ts) (hb : HeaderAt d bi) (hm : bi.type ≠ tMoov) {p : List BoxType} {st st2 : TSt DivSt (Option Sizes)}
    {v : Option Sizes} (hr : runProg BoxMap.std d path bi children (divideTool ts d fuel ⟨(), bi, p⟩) 0 st = (.ok v, st2)) :
    (Named initNames bi ∨ Named ["moof", "mdat", "mfra"] bi) ∧ (Named ["trak"] bi → trackIn d fuel ["tkhd"] bi ≠ none) ∧
    (Named ["moof"] bi → trackIn d fuel ["traf", "tfhd"] bi ≠ none) ∧ (v ≠ none → Named initNames bi) ∧
    (Fair bi → (Named initNames bi → InitLeaf d fuel ts bi v st.user st2.user) ∧ (¬ Named initNames bi → MediaLeaf d fuel ts bi st.user st2.user)) := by
  unfold divideTool at hr
  simp only at hr
  by_cases hi : Named initNames bi
  · have hi' := named_init.1 hi
    rw [if_pos (by simpa using hi')] at hr
    have n1 : ¬ Named ["moof"] bi := by
      rw [named_moof]
      intro e
      rw [e] at hi'
      exact absurd hi' (by decide)
    by_cases ht : bi.type = tTrak
    · rw [if_pos ht] at hr
      obtain ⟨l, p, he, hr⟩ := extracting_inv hr
      have hbl := below_eq (q := ["tkhd"]) (by decide) he
      match l, hr, hbl with
      | [], hr, _ => cases hr
      | _ :: _ :: _, hr, _ => cases hr
      | [(tb, tv)], hr, hbl =>
        rw [initTrak] at hr
        cases hx : tv.assert "Tkhd" with
        | none => rw [hx] at hr; exact (aborts_no hr).elim
        | some tkhd =>
          rw [hx] at hr
          simp only at hr
          have htr : trackIn d fuel ["tkhd"] bi = some (tkhd.uint "TrackID") := by
            unfold trackIn
            rw [hbl, assert_sv hx]
            rfl
          refine ⟨.inl hi, fun _ => by rw [htr]; simp, fun h => absurd h n1, fun _ => hi, fun hf => ⟨fun _ => ?_, fun h => absurd hi h⟩⟩
          have hl := initLeaf_of (fuel := fuel) (ts := ts) hd hs hb hm hf (fun t _ => ?_) hr
          · exact hl
          unfold Belongs
          rw [htr, named_trak]
          simp only [ht, hi, true_and, true_implies, Option.some.injEq, beq_iff_eq]
          exact eq_comm
    · rw [if_neg ht] at hr
      refine ⟨.inl hi, fun h => absurd (named_trak.1 h) ht, fun h => absurd h n1, fun _ => hi, fun hf => ⟨fun _ => ?_, fun h => absurd hi h⟩⟩
      have e : ts = ts.filter fun _ => true := (List.filter_eq_self.2 fun _ _ => rfl).symm
      rw [e] at hr
      refine initLeaf_of hd hs hb hm hf (fun t _ => ?_) hr
      unfold Belongs
      rw [named_trak]
      simp [ht, hi]
  · rw [if_neg (by
      have := mt named_init.2 hi
      simpa using this)] at hr
    have nt : ¬ Named ["trak"] bi := by
      rw [named_trak]
      intro e
      exact hi (named_init.2 (by rw [e]; decide))
    by_cases h1 : bi.type = tMoof
    · rw [if_pos h1] at hr
      obtain ⟨e, h2, h3⟩ := moof_step hd hs hb h1 hr
      exact ⟨.inr (by unfold Named; rw [h1]; decide), fun h => absurd h nt, fun _ => h2, fun h => absurd e h, fun hf => ⟨fun h => absurd h hi, fun _ => h3 hf⟩⟩
    rw [if_neg h1] at hr
    have n1 : ¬ Named ["moof"] bi := by rw [named_moof]; exact h1
    by_cases h2 : bi.type = tMdat
    · rw [if_pos h2] at hr
      obtain ⟨e, h3⟩ := mdat_step (fuel := fuel) hd hs hb h2 hr
      exact ⟨.inr (by unfold Named; rw [h2]; decide), fun h => absurd h nt, fun h => absurd h n1, fun h => absurd e h, fun hf => ⟨fun h => absurd h hi, fun _ => h3 hf⟩⟩
    rw [if_neg h2] at hr
    by_cases h3 : bi.type = tMfra
    · rw [if_pos h3] at hr
      cases hr
      refine ⟨.inr (by unfold Named; rw [h3]; decide), fun h => absurd h nt, fun h => absurd h n1, fun h => absurd rfl h, fun hf => ⟨fun h => absurd h hi, fun _ => ?_⟩⟩
      intro t htt a ha
      unfold mediaStep
      rw [if_neg n1, if_neg (by rw [named_mdat]; exact h2), rateStep, if_neg (fun h' => h2 (named_mdat.1 h'.1)), List.append_nil]
      exact ⟨ha, rfl⟩
    · rw [if_neg h3] at hr
      cases hr

/-! ## A row -/

/-- what has been done about a row of boxes -/
structure Done (d : Bytes) (fuel : Nat) (ts : List DTrack) (F : Forest) (s s2 : DivSt) (vs : List (Option Sizes)) : Prop where
  init : (∀ b ∈ row F, Named initNames b) →
    Grew ts (fun t => initSegment d fuel t F) s s2 ∧ ∀ t ∈ ts, reported vs t.id = (initSegment d fuel t F).length
  all : ∀ t ∈ ts, ∀ a, Holds t s a →
    Holds t s2 ⟨a.init ++ initSegment d fuel t F, ((row F).foldl (mediaStep d fuel t) (s.curr, a.segs)).2,
      a.rates ++ ratesFrom d fuel t (s.curr, a.segs) (row F)⟩ ∧
    s2.curr = ((row F).foldl (mediaStep d fuel t) (s.curr, a.segs)).1

theorem found_root {ctx : Ctx} {pos t : Nat} (t' : Nat) {F : Forest} (h : Laid d F true path ctx pos t) : Laid d F true path ctx pos t' := by
  induction F generalizing ctx pos t t' with
  | nil => exact h
  | leaf bi rest ih =>
    obtain ⟨h1, h2, h3⟩ := h
    exact ⟨⟨h1.offset, h1.header, .inl rfl, h1.own⟩, h2, ih _ h3⟩
  | node bi n kids rest _ ih =>
    obtain ⟨h1, h2, h3, h4, h5⟩ := h
    exact ⟨⟨h1.offset, h1.header, .inl rfl, h1.own⟩, h2, h3, h4, ih _ h5⟩

theorem mediaStep_init (t : DTrack) (x : Nat × List (Nat × Bytes)) (h : Named initNames bi) : mediaStep d fuel t x bi = x := by
  have h' := named_init.1 h
  unfold mediaStep
  rw [if_neg (by rw [named_moof]; intro e; rw [e] at h'; exact absurd h' (by decide)),
    if_neg (by rw [named_mdat]; intro e; rw [e] at h'; exact absurd h' (by decide))]

theorem rateStep_init (t : DTrack) (x : Nat × List (Nat × Bytes)) (h : Named initNames bi) : rateStep t x bi = [] := by
  have h' := named_init.1 h
  exact if_neg fun h2 => by
    have := named_mdat.1 h2.1
    rw [this] at h'
    exact absurd h' (by decide)

theorem not_belongs (t : DTrack) (h : ¬ Named initNames bi) : (if Belongs d fuel t bi then rawBytes d bi else []) = [] :=
  if_neg fun h' => h h'.1

/-- an initialization box first, then a row -/
theorem Done.consInit {F G : Forest} {c : DTrack → Bytes} {s s1 s2 : DivSt} {v : Option Sizes} {vs : List (Option Sizes)}
    (hrow : row G = bi :: row F) (hn : Named initNames bi) (hseg : ∀ t, initSegment d fuel t G = c t ++ initSegment d fuel t F)
    (hg : Grew ts c s s1) (hv : ∀ t ∈ ts, (v.getD []).of t.id = (c t).length) (h : Done d fuel ts F s1 s2 vs) : Done d fuel ts G s s2 (v :: vs) := by
  refine ⟨fun hall => ?_, fun t ht a ha => ?_⟩
  · rw [hrow] at hall
    obtain ⟨h1, h2⟩ := h.init fun b hb => hall b (List.mem_cons_of_mem _ hb)
    refine ⟨(hg.trans h1).congr fun t _ => (hseg t).symm, fun t ht => ?_⟩
    rw [hseg, List.length_append, ← h2 t ht, ← hv t ht]
    rfl
  · have h1 := ha.grew hg (hg.mine t ht)
    have h2 := h.all t ht _ h1
    rw [hrow, List.foldl_cons, ratesFrom, rateStep_init t _ hn, mediaStep_init t _ hn, hseg]
    rw [show s1.curr = s.curr from hg.same.curr] at h2
    simpa using h2

/-- a box of a fragment first -/
theorem Done.consMedia {F : Forest} {s s1 s2 : DivSt} {v : Option Sizes} {vs : List (Option Sizes)} (hn : ¬ Named initNames bi)
    (hg : MediaLeaf d fuel ts bi s s1) (h : Done d fuel ts F s1 s2 vs) : Done d fuel ts (.leaf bi F) s s2 (v :: vs) := by
  refine ⟨fun hall => absurd (hall bi (by simp [row])) hn, fun t ht a ha => ?_⟩
  obtain ⟨h1, h2⟩ := hg t ht a ha
  have h3 := h.all t ht _ h1
  rw [h2] at h3
  rw [row, ratesFrom, ← List.append_assoc, initSegment, not_belongs t hn, List.nil_append, List.foldl_cons]
  exact h3

theorem rows (hd : d.length ≤ maxAlloc) (hs : Sep ts) : ∀ (f : Nat) (parent : Option BoxInfo) (total : Nat) (isRoot : Bool) (path : List BoxType)
    (ctx : Ctx) (st st2 : TSt DivSt (Option Sizes)) (vs : List (Option Sizes)), total < U64 →
    readStructure BoxMap.std d (divideTool ts d fuel) f parent total isRoot path ctx () st = (.ok vs, st2) →
    ∃ F, Laid d F isRoot path ctx st.pos total ∧ Expected d fuel F ∧ ((∀ v ∈ vs, v ≠ none) → ∀ b ∈ row F, Named initNames b) ∧
      (SaneSizes F → (isRoot = false → ∀ t, (initSegment d fuel t F).length ≤ total) ∧ Done d fuel ts F st.user st2.user vs) := by
  intro f
  induction f with
  | zero =>
    intro parent total isRoot path ctx st st2 vs _ hr
    rw [readStructure] at hr
    cases hr
  | succ f ih =>
    intro parent total isRoot path ctx st st2 vs htot hr
    rcases row_ok_inv hd hr with ⟨rfl, hu, he⟩ | ⟨bi, v, vs', st1, hb, rfl, h1, h63, h2⟩
    · refine ⟨.nil, he, trivial, fun _ b hb => by simp [row] at hb, fun _ => ⟨fun _ t => by simp [initSegment], ?_⟩⟩
      rw [hu]
      refine ⟨fun _ => ⟨.refl _, fun t _ => rfl⟩, fun t _ a ha => ?_⟩
      rw [initSegment, List.append_nil, row, List.foldl_nil, ratesFrom, List.append_nil]
      exact ⟨ha, rfl⟩
    · obtain ⟨R, r1, r2, r3, r4⟩ := ih _ (sub64 total bi.size) _ _ _ _ _ _ (Nat.mod_lt _ (by decide)) h2
      have hseen : Seen d isRoot path ctx st.pos total bi :=
        ⟨hb.offset, hb.offset ▸ hb.hdr.iso, hb.fit, hb.own⟩
      have r1' : Laid d R isRoot path (nextCtx ctx bi) (endOf bi) (total - bi.size) := by
        cases isRoot with
        | true => exact found_root _ r1
        | false =>
          have e : sub64 total bi.size = total - bi.size := by
            have := hb.fit.resolve_left (by simp)
            unfold sub64
            simp only [U64] at *
            omega
          rw [← e]
          exact r1
      have hbound : ∀ n : Nat, isRoot = false → n ≤ bi.size → (SaneSizes R → ∀ t, n + (initSegment d fuel t R).length ≤ total) := by
        intro n hroot hn hR t
        have h3 := (r4 hR).1 hroot t
        have := hb.fit.resolve_left (by simp [hroot])
        have e : sub64 total bi.size = total - bi.size := by
          unfold sub64
          simp only [U64] at *
          omega
        rw [e] at h3
        omega
      by_cases hm : bi.type = tMoov
      · have hn : Named initNames bi := named_init.2 (by rw [hm]; decide)
        have h1' : runProg BoxMap.std d (path ++ [bi.type]) bi
            (fun co p => readStructure BoxMap.std d (divideTool ts d fuel) f (some bi) (sub64 (add64 bi.offset bi.size) co) false (path ++ [bi.type]) (childCtx bi) p)
            (initBox bi ts) 0 (entered st parent (path ++ [bi.type]) bi) = (.ok v, st1) := by
          unfold divideTool at h1
          simp only at h1
          rw [if_pos (by rw [hm]; decide), if_neg (by rw [hm]; decide)] at h1
          exact h1
        obtain ⟨n, ks, st3, hp, hk, hall, hrest⟩ := initBox_moov hd hb.hdr hm hs h1'
        have hn0 := moov_payload hm hp
        subst hn0
        rw [Nat.add_zero] at hk
        have hroom : sub64 (add64 bi.offset bi.size) (bi.offset + bi.headerSize) = room bi (bi.offset + bi.headerSize) := by
          have := hb.hdr.inside
          unfold sub64 add64 room
          simp only [U64, maxAlloc] at *
          omega
        rw [hroom] at hk
        obtain ⟨K, k1, k2, k3, k4⟩ := ih _ (room bi (bi.offset + bi.headerSize)) _ _ _ _ _ _ (Nat.mod_lt _ (by decide)) hk
        refine ⟨.node bi 0 K R, ⟨hseen, hm, rfl, k1, r1'⟩, ⟨k3 hall, k2, r2⟩, ?_, ?_⟩
        · intro hv b hb'
          rcases List.mem_cons.1 hb' with rfl | hb'
          · exact hn
          · exact r3 (fun v hv' => hv v (List.mem_cons_of_mem _ hv')) b hb'
        · rintro ⟨hf, hK, hR⟩
          obtain ⟨b1, b2⟩ := k4 hK
          have hlen := (header_bytes hb.hdr).2.2
          have hkl : ∀ t, bi.headerSize + (initSegment d fuel t K).length ≤ bi.size := by
            intro t
            have := b1 rfl t
            have e : room bi (bi.offset + bi.headerSize) = bi.size - bi.headerSize := by
              have := hb.hdr.inside
              unfold room
              simp only [maxAlloc] at *
              omega
            rw [e] at this
            have := hf.1
            omega
          obtain ⟨g1, g2⟩ := b2.init (k3 hall)
          obtain ⟨v1, v2⟩ := hrest (fun t => initSegment d fuel t K) (fun t => (initSegment d fuel t K).length) g1 g2 (by
            intro t _
            have h3 := hkl t
            have h4 := hb.hdr.lt
            refine ⟨by omega, fun h => ?_⟩
            have : bi.size < 2 ^ 32 := by
              unfold Form.of at h
              split at h
              · cases h
              · split at h
                · cases h
                · omega
            omega)
          have hseg : ∀ t, initSegment d fuel t (.node bi 0 K R) =
              ((Form.of bi).header bi.type (bi.headerSize + (initSegment d fuel t K).length) ++ initSegment d fuel t K) ++ initSegment d fuel t R := fun t => by
            rw [initSegment]
          have hhl : ∀ t, ((Form.of bi).header bi.type (bi.headerSize + (initSegment d fuel t K).length) ++ initSegment d fuel t K).length =
              bi.headerSize + (initSegment d fuel t K).length := fun t => by
            rw [List.length_append, Form.header_length, hlen]
          refine ⟨fun hroot t => ?_, ?_⟩
          · rw [hseg, List.length_append, hhl]
            exact hbound _ hroot (hkl t) hR t
          · refine Done.consInit rfl hn hseg v2 (fun t ht => ?_) (r4 hR).2
            rw [v1, Option.getD_some, hhl]
            exact sizes_of (z := fun t => bi.headerSize + (initSegment d fuel t K).length) hs ht
      · obtain ⟨l1, l2, l3, l4, l5⟩ := leaf_step hd hs hb.hdr hm h1
        refine ⟨.leaf bi R, ⟨hseen, hm, r1'⟩, ⟨l1, l2, l3, r2⟩, ?_, ?_⟩
        · intro hv b hb'
          rcases List.mem_cons.1 hb' with rfl | hb'
          · exact l4 (hv v (by simp))
          · exact r3 (fun v hv' => hv v (List.mem_cons_of_mem _ hv')) b hb'
        · rintro ⟨hf, hR⟩
          refine ⟨fun hroot t => ?_, ?_⟩
          · rw [initSegment, List.length_append]
            refine hbound _ hroot ?_ hR t
            split
            · unfold rawBytes
              rw [List.length_take]
              omega
            · exact Nat.zero_le _
          · by_cases hn : Named initNames bi
            · have hl := (l5 hf).1 hn
              exact Done.consInit rfl hn (fun t => by rw [initSegment]) hl.grew hl.size (r4 hR).2
            · exact Done.consMedia hn ((l5 hf).2 hn) (r4 hR).2

/-! ## There is only one way to read the file -/

theorem ownCtx_unique {ctx : Ctx} {a b : BoxInfo} (h1 : a.offset = b.offset) (h2 : a.size = b.size) (h3 : a.headerSize = b.headerSize) (h4 : a.type = b.type)
    (ha : OwnCtx d path ctx a) (hb : OwnCtx d path ctx b) : a.ctx = b.ctx := by
  have hq : FtypQt d ctx a ↔ FtypQt d ctx b := by unfold FtypQt; rw [h1, h2, h3]
  have e1 : a.ctx.isQuickTimeCompatible = b.ctx.isQuickTimeCompatible := by
    rw [Bool.eq_iff_iff, ha.qt, hb.qt, h4, hq]
  have e2 : a.ctx.quickTimeKeysMetaEntryCount = b.ctx.quickTimeKeysMetaEntryCount := by
    by_cases hk : a.type = tKeys
    · obtain ⟨x, n, p, q1, q2⟩ := ha.keys' hk
      obtain ⟨y, m, r, q3, q4⟩ := hb.keys' (h4 ▸ hk)
      rw [h1, h2, h3, q3] at q1
      cases q1
      rw [← q2, ← q4]
    · rw [ha.keys hk, hb.keys (h4 ▸ hk)]
  have e3 := ha.wave.trans hb.wave.symm
  have e4 := ha.ilst.trans hb.ilst.symm
  have e5 := ha.ilstMeta.trans hb.ilstMeta.symm
  have e6 := ha.ilstFree.trans hb.ilstFree.symm
  have e7 := ha.udta.trans hb.udta.symm
  cases ha' : a.ctx
  cases hb' : b.ctx
  simp only [ha', hb'] at e1 e2 e3 e4 e5 e6 e7
  rw [e1, e2, e3, e4, e5, e6, e7]

theorem seen_unique {isRoot : Bool} {ctx : Ctx} {pos total : Nat} {a b : BoxInfo} (ha : Seen d isRoot path ctx pos total a) (hb : Seen d isRoot path ctx pos total b) :
    a = b := by
  have h := ha.header
  rw [hb.header] at h
  have h0 := ha.offset.trans hb.offset.symm
  cases a
  cases b
  simp only at h h0
  cases h
  subst h0
  have := ownCtx_unique (by rfl) (by rfl) (by rfl) (by rfl) ha.own hb.own
  simp only at this
  rw [this]

theorem seen_ends {isRoot : Bool} {ctx : Ctx} {pos total : Nat} {a : BoxInfo} (ha : Seen d isRoot path ctx pos total a) (hb : RowEnds d isRoot ctx pos total) : False := by
  unfold RowEnds at hb
  split at hb
  · have := ha.header
    rw [hb] at this
    cases this
  · next h =>
    have := ha.inParent.resolve_left h
    omega

theorem laid_unique : ∀ {F G : Forest} {isRoot : Bool} {path : List BoxType} {ctx : Ctx} {pos total : Nat}, Laid d F isRoot path ctx pos total →
    Laid d G isRoot path ctx pos total → F = G
  | .nil, .nil, _, _, _, _, _, _, _ => rfl
  | .nil, .leaf _ _, _, _, _, _, _, h1, h2 => (seen_ends h2.1 h1).elim
  | .nil, .node _ _ _ _, _, _, _, _, _, h1, h2 => (seen_ends h2.1 h1).elim
  | .leaf _ _, .nil, _, _, _, _, _, h1, h2 => (seen_ends h1.1 h2).elim
  | .node _ _ _ _, .nil, _, _, _, _, _, h1, h2 => (seen_ends h1.1 h2).elim
  | .leaf a F, .leaf b G, _, _, _, _, _, h1, h2 => by
    have e := seen_unique h1.1 h2.1
    subst e
    rw [laid_unique h1.2.2 h2.2.2]
  | .leaf a F, .node b n K G, _, _, _, _, _, h1, h2 => by
    have e := seen_unique h1.1 h2.1
    subst e
    exact absurd h2.2.1 h1.2.1
  | .node a n K F, .leaf b G, _, _, _, _, _, h1, h2 => by
    have e := seen_unique h1.1 h2.1
    subst e
    exact absurd h1.2.1 h2.2.1
  | .node a n K F, .node b m L G, _, _, _, _, _, h1, h2 => by
    have e := seen_unique h1.1 h2.1
    subst e
    obtain ⟨-, -, hn, k1, r1⟩ := h1
    obtain ⟨-, -, hm, k2, r2⟩ := h2
    rw [hn, hm, laid_unique k1 k2, laid_unique r1 r2]

end

end Mp4.Tool
