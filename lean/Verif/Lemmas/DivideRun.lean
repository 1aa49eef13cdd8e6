import Verif.Lemmas.DivideRow
import Verif.Props.Probe
import Verif.Props.ProbeSafe

/-! # When `mp4tool divide` succeeds -/

namespace Mp4.Tool

open Mp4.Props

section
variable {d : Bytes} {path : List BoxType} {bi : BoxInfo} {children : Nat → Unit → TM DivSt (Option Sizes) (List (Option Sizes))} {fuel : Nat}
  {ts : List DTrack}

/-- The program succeeds, with such a result and such files. -/
def Ok (d : Bytes) (path : List BoxType) (bi : BoxInfo) (children : Nat → Unit → TM DivSt (Option Sizes) (List (Option Sizes))) (prog : VProg) (co : Nat)
    (st : TSt DivSt (Option Sizes)) (P : Option Sizes → DivSt → Prop) : Prop :=
  ∃ v st2, runProg BoxMap.std d path bi children prog co st = (.ok v, st2) ∧ P v st2.user

section
variable {co : Nat} {st : TSt DivSt (Option Sizes)} {P : Option Sizes → DivSt → Prop}

theorem ok_ret {v : Option Sizes} (h : P v st.user) : Ok d path bi children (.ret v) co st P := ⟨v, st, rfl, h⟩

theorem ok_get {k : DivSt → VProg} (h : Ok d path bi children (k st.user) co st P) : Ok d path bi children (.get k) co st P := by
  obtain ⟨v, st2, e, hp⟩ := h
  refine ⟨v, st2, ?_, hp⟩
  rw [runProg, M.bind_ok (M.get_run _)]
  exact e

theorem ok_set {s : DivSt} {k : VProg} (h : Ok d path bi children k co ⟨st.pos, s, st.log⟩ P) : Ok d path bi children (.set s k) co st P := by
  obtain ⟨v, st2, e, hp⟩ := h
  refine ⟨v, st2, ?_, hp⟩
  rw [runProg, M.bind_ok (M.modify_run _ _)]
  exact e

theorem ok_extracting {q : List BoxType} {k : List (BoxInfo × BoxVal) → VProg} {b : BoxInfo} {l : List (BoxInfo × BoxVal)}
    (he : (extractBoxWithPayload BoxMap.std d fuel (some b) q 0).1 = .ok l) (h : ∀ p, Ok d path bi children (k l) co ⟨p, st.user, st.log⟩ P) :
    Ok d path bi children (extracting d fuel b q k) co st P := by
  obtain ⟨v, st2, e, hp⟩ := h (extractBoxWithPayload BoxMap.std d fuel (some b) q st.pos).2
  refine ⟨v, st2, ?_, hp⟩
  unfold extracting
  rw [runProg, M.bind_ok (M.get_run _), M.bind_ok (M.modify_run _ _), extract_anywhere, he]
  exact e

theorem ok_readData (hd : d.length ≤ maxAlloc) (hb : HeaderAt d bi) (hf : Fair bi) (hin : bi.offset + bi.size ≤ d.length)
    {k : Except Err Nat → Bytes → VProg} (h : ∀ n b p, Ok d path bi children (k (.ok n) b) co ⟨p, st.user, st.log⟩ P) :
    Ok d path bi children (.readData ⟨none, 0⟩ k) co st P := by
  have hc : ∃ b p, copyNP d (bi.size - bi.headerSize) (bi.offset + bi.headerSize) = (.ok b, p) := by
    unfold copyNP
    split
    · exact ⟨_, _, rfl⟩
    · simp only
      rw [if_neg (by have := hf.1; simp only [List.length_take, List.length_drop]; omega)]
      exact ⟨_, _, rfl⟩
  obtain ⟨b, p, hc⟩ := hc
  obtain ⟨v, st2, e, hp⟩ := h (bi.size - bi.headerSize) b p
  refine ⟨v, st2, ?_, hp⟩
  have hs := seekToPayload_ok hd hb.inside (pos := st.pos)
  have hr : readDataP d bi ⟨none, 0⟩ st.pos = (.ok (.ok (bi.size - bi.headerSize), b), p) := by
    unfold readDataP
    rw [hs]
    simp only [sub64_fair hf, hc]
  have hl : (liftP (readDataP d bi ⟨none, 0⟩) : TM DivSt (Option Sizes) _) st = (.ok (.ok (bi.size - bi.headerSize), b), { st with pos := p }) := by
    rw [liftP_run, hr]
  rw [runProg, M.bind_ok hl]
  exact e

/-! ## The parts of the handler -/

theorem startHeaders_same (bi : BoxInfo) : ∀ (l : List DTrack) (s : DivSt), Same s (startHeaders bi l s).2
  | [], s => .refl s
  | t :: l, s => (Same.mk rfl rfl rfl rfl rfl rfl : Same s (initWrite t (boxInfoBytes bi) (initSeek t (s.inits t.kind).length s))).trans
      (startHeaders_same bi l _)

theorem finishHeaders_same : ∀ (l : List Row) (s : DivSt), Same s (finishHeaders l s).2
  | [], s => .refl s
  | r :: l, s => (Same.mk rfl rfl rfl rfl rfl rfl : Same s (initWrite r.track (boxInfoBytes r.info) (initSeek r.track r.offset s))).trans
      (finishHeaders_same l _)

theorem ok_finish (rows : List Row) (h : ∀ v s, Same st.user s → P (some v) s) : Ok d path bi children (finish rows) co st P :=
  ok_get (ok_set (ok_ret (h _ _ (finishHeaders_same rows st.user))))

theorem ok_copyPayload (hd : d.length ≤ maxAlloc) (hb : HeaderAt d bi) (hf : Fair bi) (hin : bi.offset + bi.size ≤ d.length) :
    ∀ (l rows : List Row) (st : TSt DivSt (Option Sizes)), (∀ v s, Same st.user s → P (some v) s) →
    Ok d path bi children (copyPayload l rows finish) co st P
  | [], rows, st, h => ok_finish rows h
  | r :: l, rows, st, h => ok_readData hd hb hf hin fun n b p => ok_get (ok_set (ok_copyPayload hd hb hf hin l _ _ fun v s hs =>
      h v s ((Same.mk rfl rfl rfl rfl rfl rfl : Same st.user (initWrite r.track b st.user)).trans hs)))

theorem ok_initLeaf (hd : d.length ≤ maxAlloc) (hb : HeaderAt d bi) (hf : Fair bi) (hin : bi.offset + bi.size ≤ d.length) (hm : bi.type ≠ tMoov)
    (l : List DTrack) (h : ∀ v s, Same st.user s → P (some v) s) : Ok d path bi children (initBox bi l) co st P := by
  refine ok_get (ok_set ?_)
  rw [if_neg hm]
  exact ok_copyPayload hd hb hf hin _ _ _ fun v s hs => h v s ((startHeaders_same bi l st.user).trans hs)

theorem ok_copyMedia (hd : d.length ≤ maxAlloc) (hb : HeaderAt d bi) (hf : Fair bi) (hin : bi.offset + bi.size ≤ d.length) (t : DTrack)
    (h : ∀ s, s.curr = st.user.curr → s.durs = st.user.durs → P none s) : Ok d path bi children (copyMedia t bi) co st P :=
  ok_get (ok_set (ok_readData hd hb hf hin fun n b p => ok_get (ok_set (ok_ret (h _ rfl rfl)))))

end

/-- The current track, if it is known, has a segment. -/
def Ready (ts : List DTrack) (s : DivSt) : Prop := ∀ t, trackBy ts s.curr = some t → s.durs t.id ≠ []

theorem Ready.same {s s2 : DivSt} (h : Ready ts s) (hs : Same s s2) : Ready ts s2 := by
  unfold Ready
  rw [hs.curr, hs.durs]
  exact h

/-- the boxes that are extracted are of these Go types -/
theorem below_asserts (hd : d.length ≤ 2 ^ 48) (hb : HeaderAt d bi) {q : List String} {q' : List BoxType} (hq : q.map fourcc = q') {t : BoxType} {name : String}
    (hlast : ∀ p, Asked [q'] p → p.getLast? = some t) (hs : (BoxMap.std t).map (fun bd => (bd.goName, bd.target.isNone)) = [(name, true)])
    {x : SV} {xs : List SV} (h : below d fuel q bi = x :: xs) :
    ∃ l, (extractBoxWithPayload BoxMap.std d fuel (some bi) q' 0).1 = .ok l ∧ l.map (·.2.sv) = x :: xs ∧ ∀ y ∈ l, y.2.assert name = some y.2.sv := by
  unfold below at h
  rw [hq] at h
  generalize hr : extractBoxWithPayload BoxMap.std d fuel (some bi) q' 0 = r at h
  match r, hr, h with
  | (.ok l, p), hr, h =>
    refine ⟨l, rfl, h, fun y hy => ?_⟩
    obtain ⟨ctx, hall⟩ := (extract_payload_sound hd fuel bi hb.iso [q'] 0).2 l p hr
    obtain ⟨⟨pth, hl, ha⟩, hbd, -⟩ := hall y hy
    have ht : y.1.type = t := Option.some.inj ((leads_type hl).symm.trans (hlast _ ha))
    rw [ht] at hbd
    obtain ⟨f, hf⟩ := assert_ok (fun sv => sv) hs hbd
    cases hv : y.2.assert name with
    | none => rw [hv] at hf; cases hf
    | some sv => rw [assert_sv hv]
  | (.err e, p), hr, h => cases h
  | (.panic, p), hr, h => cases h
  | (.hang, p), hr, h => cases h

theorem asked_last {q : List BoxType} {t : BoxType} (hq : ∀ x ∈ q, x ≠ ⟨0, 0, 0, 0⟩) (ht : q.getLast? = some t) : ∀ p, Asked [q] p → p.getLast? = some t := by
  intro p h
  obtain ⟨-, q', hq', h2⟩ := h
  rw [List.mem_singleton] at hq'
  subst hq'
  have := (hasPattern_exact hq).1 h2
  subst this
  exact ht

theorem below_tkhd (hd : d.length ≤ 2 ^ 48) (hb : HeaderAt d bi) {x : SV} {xs : List SV} (h : below d fuel ["tkhd"] bi = x :: xs) :
    ∃ l, (extractBoxWithPayload BoxMap.std d fuel (some bi) [tTkhd] 0).1 = .ok l ∧ l.map (·.2.sv) = x :: xs ∧ ∀ y ∈ l, y.2.assert "Tkhd" = some y.2.sv :=
  below_asserts hd hb (by decide) (asked_last (by decide) rfl) (asserted (tTkhd, "Tkhd") (by decide)) h

theorem below_tfhd (hd : d.length ≤ 2 ^ 48) (hb : HeaderAt d bi) {x : SV} {xs : List SV} (h : below d fuel ["traf", "tfhd"] bi = x :: xs) :
    ∃ l, (extractBoxWithPayload BoxMap.std d fuel (some bi) [tTraf, tTfhd] 0).1 = .ok l ∧ l.map (·.2.sv) = x :: xs ∧ ∀ y ∈ l, y.2.assert "Tfhd" = some y.2.sv :=
  below_asserts hd hb (by decide) (asked_last (by decide) rfl) (asserted (tTfhd, "Tfhd") (by decide)) h

theorem below_trun (hd : d.length ≤ 2 ^ 48) (hb : HeaderAt d bi) {x : SV} {xs : List SV} (h : below d fuel ["traf", "trun"] bi = x :: xs) :
    ∃ l, (extractBoxWithPayload BoxMap.std d fuel (some bi) [tTraf, tTrun] 0).1 = .ok l ∧ l.map (·.2.sv) = x :: xs ∧ ∀ y ∈ l, y.2.assert "Trun" = some y.2.sv :=
  below_asserts hd hb (by decide) (asked_last (by decide) rfl) (asserted (tTrun, "Trun") (by decide)) h

theorem trackIn_some {q : List String} {id : Nat} (h : trackIn d fuel q bi = some id) : ∃ x, below d fuel q bi = [x] ∧ x.uint "TrackID" = id := by
  unfold trackIn at h
  split at h
  · next x hx => exact ⟨x, hx, Option.some.inj h⟩
  · cases h

/-- a list that becomes a list of one element -/
theorem map_one {α β : Type} {f : α → β} {l : List α} {x : β} (h : l.map f = [x]) : ∃ a, l = [a] ∧ f a = x := by
  match l, h with
  | [a], h => exact ⟨a, rfl, by simpa using h⟩

/-- a box other than `moov` -/
theorem ok_leaf (hd : d.length ≤ 2 ^ 48) (hb : HeaderAt d bi) (hf : Fair bi) (hin : bi.offset + bi.size ≤ d.length) (hm : bi.type ≠ tMoov)
    (hn : Named initNames bi ∨ Named ["moof", "mdat", "mfra"] bi) (ht : Named ["trak"] bi → trackIn d fuel ["tkhd"] bi ≠ none)
    (hmf : Named ["moof"] bi → trackIn d fuel ["traf", "tfhd"] bi ≠ none)
    (hrun : Named ["moof"] bi → ∀ t ∈ ts, trackIn d fuel ["traf", "tfhd"] bi = some t.id → below d fuel ["traf", "trun"] bi ≠ [])
    {p : List BoxType} {st : TSt DivSt (Option Sizes)} (hr : Ready ts st.user) :
    Ok d path bi children (divideTool ts d fuel ⟨(), bi, p⟩) 0 st fun v s => Ready ts s ∧ (Named initNames bi → v ≠ none) := by
  have hd' : d.length ≤ maxAlloc := hd
  unfold divideTool
  simp only
  by_cases hi : Named initNames bi
  · rw [if_pos (by simpa using named_init.1 hi)]
    by_cases h1 : bi.type = tTrak
    · rw [if_pos h1]
      obtain ⟨id, hid⟩ := Option.ne_none_iff_exists'.1 (ht (named_trak.2 h1))
      obtain ⟨x, hx, -⟩ := trackIn_some hid
      obtain ⟨l, e1, e2, e3⟩ := below_tkhd hd hb hx
      obtain ⟨y, rfl, rfl⟩ := map_one e2
      refine ok_extracting e1 fun q => ?_
      unfold initTrak
      simp only [e3 y (by simp)]
      exact ok_initLeaf hd' hb hf hin hm _ fun v s hs => ⟨hr.same hs, fun _ => by simp⟩
    · rw [if_neg h1]
      exact ok_initLeaf hd' hb hf hin hm _ fun v s hs => ⟨hr.same hs, fun _ => by simp⟩
  · rw [if_neg (by simpa using mt named_init.2 hi)]
    by_cases h1 : bi.type = tMoof
    · rw [if_pos h1]
      obtain ⟨id, hid⟩ := Option.ne_none_iff_exists'.1 (hmf (named_moof.2 h1))
      obtain ⟨x, hx, hxid⟩ := trackIn_some hid
      obtain ⟨l, e1, e2, e3⟩ := below_tfhd hd hb hx
      obtain ⟨y, rfl, rfl⟩ := map_one e2
      refine ok_extracting e1 fun q => ?_
      unfold moofHead
      simp only [e3 y (by simp)]
      refine ok_get (ok_set ?_)
      rw [hxid]
      cases hu : trackBy ts id with
      | none => exact ok_ret ⟨fun t h => (by simp only [hu] at h; cases h), fun h => absurd h hi⟩
      | some u =>
        obtain ⟨hu1, hu2⟩ := trackBy_some hu
        cases hb2 : below d fuel ["traf", "trun"] bi with
        | nil => exact absurd hb2 (hrun (named_moof.2 h1) u hu1 (by rw [hid, hu2]))
        | cons z zs =>
          obtain ⟨l, f1, f2, f3⟩ := below_trun hd hb hb2
          match l, f1, f2, f3 with
          | (rb, rv) :: l, f1, f2, f3 =>
            refine ok_extracting f1 fun q => ?_
            unfold moofRun
            have := f3 (rb, rv) (by simp)
            simp only at this
            simp only [this]
            refine ok_get (ok_set (ok_copyMedia hd' hb hf hin _ fun s hc hdur => ⟨fun t h => ?_, fun h => absurd h hi⟩))
            rw [hc] at h
            simp only [nextSegment, hu] at h
            cases h
            rw [hdur]
            simp [nextSegment, upd]
    rw [if_neg h1]
    by_cases h2 : bi.type = tMdat
    · rw [if_pos h2]
      refine ok_get ?_
      cases hu : trackBy ts st.user.curr with
      | none => exact ok_ret ⟨hr, fun h => absurd h hi⟩
      | some u =>
        simp only
        rw [if_neg (hr u hu)]
        refine ok_set (ok_copyMedia hd' hb hf hin _ fun s hc hdur => ⟨fun t h => ?_, fun h => absurd h hi⟩)
        rw [hdur]
        rw [hc] at h
        exact hr t h
    rw [if_neg h2]
    by_cases h3 : bi.type = tMfra
    · rw [if_pos h3]
      exact ok_ret ⟨hr, fun h => absurd h hi⟩
    · exfalso
      rcases hn with h | h
      · exact hi h
      · unfold Named at h
        rw [show ["moof", "mdat", "mfra"].map fourcc = [tMoof, tMdat, tMfra] by decide] at h
        simp [h1, h2, h3] at h

theorem addSizes_ok : ∀ (vs : List (Option Sizes)) (rows : List Row), (∀ v ∈ vs, v ≠ none) → ∃ rows', addSizes vs rows = some rows'
  | [], rows, _ => ⟨rows, rfl⟩
  | none :: _, _, h => absurd rfl (h none (by simp))
  | some ci :: l, rows, h => addSizes_ok l _ fun v hv => h v (List.mem_cons_of_mem _ hv)

/-- `moov` -/
theorem ok_moov (hd : d.length ≤ maxAlloc) (hb : HeaderAt d bi) (hm : bi.type = tMoov) (hn : PayloadN d bi 0) (l : List DTrack) {st : TSt DivSt (Option Sizes)}
    {P : Option Sizes → DivSt → Prop}
    (hc : ∀ s, Same st.user s → ∃ vs st1, children (bi.offset + bi.headerSize) () ⟨bi.offset + bi.headerSize, s, st.log ++ [.openBox path bi (bi.offset + bi.headerSize)]⟩ =
      (.ok vs, st1) ∧ (∀ v ∈ vs, v ≠ none) ∧ ∀ v s2, Same st1.user s2 → P (some v) s2) :
    Ok d path bi children (initBox bi l) 0 st P := by
  refine ok_get (ok_set ?_)
  rw [if_pos hm]
  obtain ⟨vs, st1, h1, h2, h3⟩ := hc _ (startHeaders_same bi l st.user)
  obtain ⟨rows, hrows⟩ := addSizes_ok vs (startHeaders bi l st.user).1 h2
  obtain ⟨v, st2, h4, h5⟩ : Ok d path bi children (finish rows) (bi.offset + bi.headerSize + 0) ⟨st1.pos, st1.user, st1.log ++ [.closeBox path bi (.ok vs)]⟩ P :=
    ok_finish rows fun v s hs => h3 v s hs
  refine ⟨v, st2, ?_, h5⟩
  rw [runProg_expand hd hb.inside hn (o := .ok vs) (st2 := st1) h1]
  simp only [moovDone, hrows]
  exact h4

/-! ## A row -/

theorem placed_fair (hd : d.length ≤ maxAlloc) {isRoot : Bool} {ctx : Ctx} {pos total : Nat} (h : Forest.Placed d isRoot path ctx pos total bi) :
    HeaderAt d bi ∧ Fair bi ∧ bi.offset + bi.size ≤ d.length := by
  refine ⟨(placed_header hd h).2, ⟨h.whole, ?_⟩, by rw [h.offset]; exact h.inFile⟩
  have := h.inFile
  simp only [maxAlloc] at hd
  omega

theorem init_not_moof (h : Named initNames bi) : ¬ Named ["moof"] bi := by
  rw [named_moof]
  intro e
  have := named_init.1 h
  rw [e] at this
  exact absurd this (by decide)

/-- the end of a well-formed row -/
theorem row_end (hd : d.length ≤ maxAlloc) {S P V : Type} {h : Handler S P V} {f : Nat} {parent : Option BoxInfo} {total : Nat} {isRoot : Bool} {path : List BoxType}
    {ctx : Ctx} {p : P} {st : TSt S V} (hwf : Forest.nil.WF d isRoot path ctx st.pos total) :
    ∃ q, readStructure BoxMap.std d h (f + 1) parent total isRoot path ctx p st = (.ok [], ⟨q, st.user, st.log⟩) := by
  simp only [Forest.WF] at hwf
  rw [readStructure]
  cases isRoot with
  | true =>
    rw [if_pos rfl] at hwf
    have hi := readBoxInfo_iso d st.pos (by simp only [maxAlloc] at hd; omega)
    rw [hwf, List.drop_length] at hi
    have hi : ∃ q, readBoxInfo d st.pos = (.err .eof, q) := by rw [hwf]; exact hi
    obtain ⟨q, hi⟩ := hi
    have e1 : (tryM (liftP (readBoxInfo d)) : TM S V _) st = (.ok (.error .eof), { st with pos := q }) := by
      unfold tryM; rw [liftP_run, hi]
    rw [if_pos (.inl rfl), M.bind_ok e1]
    exact ⟨q, rfl⟩
  | false =>
    rw [if_neg (by simp)] at hwf
    rw [if_neg (by simp [smallHeaderSize]; omega), if_neg (by
      rintro ⟨h1, h2⟩
      rcases hwf with h | h
      · exact h1 h
      · exact h2 h.2)]
    exact ⟨st.pos, rfl⟩

theorem ok_row (hd : d.length ≤ 2 ^ 48) : ∀ (F : Forest) (f : Nat) (parent : Option BoxInfo) (total : Nat) (isRoot : Bool) (path : List BoxType)
    (ctx : Ctx) (st : TSt DivSt (Option Sizes)), F.WF d isRoot path ctx st.pos total → MoovOnly F → Expected d fuel F →
    (∀ t ∈ ts, HasRuns d fuel t.id F) → Ready ts st.user → F.count < f → total < U64 →
    ∃ vs st2, readStructure BoxMap.std d (divideTool ts d fuel) f parent total isRoot path ctx () st = (.ok vs, st2) ∧ Ready ts st2.user ∧
      ((∀ b ∈ row F, Named initNames b) → ∀ v ∈ vs, v ≠ none) := by
  have hd' : d.length ≤ maxAlloc := hd
  intro F
  induction F with
  | nil =>
    intro f parent total isRoot path ctx st hwf _ _ _ hrd hf ht
    obtain ⟨f, rfl⟩ : ∃ g, f = g + 1 := ⟨f - 1, by simp only [Forest.count] at hf; omega⟩
    obtain ⟨q, e⟩ := row_end hd' (h := divideTool ts d fuel) (f := f) (parent := parent) (p := ()) hwf
    exact ⟨[], _, e, hrd, fun _ v hv => absurd hv (by simp)⟩
  | leaf bi rest ih =>
    intro f parent total isRoot path ctx st hwf hmo hex hru hrd hf ht
    obtain ⟨f, rfl⟩ : ∃ g, f = g + 1 := ⟨f - 1, by simp only [Forest.count] at hf; omega⟩
    simp only [Forest.count] at hf
    obtain ⟨hp, hwf⟩ := hwf
    obtain ⟨hm, hmo⟩ := hmo
    obtain ⟨x1, x2, x3, hex⟩ := hex
    obtain ⟨hb, hfair, hin⟩ := placed_fair hd' hp
    obtain ⟨hwf', hlt⟩ := rest_wf hp.inParent ht hwf
    obtain ⟨v, st1, h1, h2, h3⟩ := ok_leaf (path := path ++ [bi.type])
      (children := fun co p => readStructure BoxMap.std d (divideTool ts d fuel) f (some bi) (sub64 (add64 bi.offset bi.size) co) false (path ++ [bi.type]) (childCtx bi) p)
      (p := path ++ [bi.type]) (st := entered { st with pos := st.pos + bi.headerSize } parent (path ++ [bi.type]) bi)
      hd hb hfair hin (by rw [show tMoov = fourcc "moov" by decide]; exact hm) x1 x2 x3
      (fun h t htt => hru t htt bi (by simp [row]) h) hrd
    obtain ⟨vs, st2, e, hrd2, hv⟩ := ih f parent (sub64 total bi.size) isRoot path (nextCtx ctx bi)
      ⟨st.pos + bi.size, st1.user, st1.log ++ [.leave parent (path ++ [bi.type]) bi (.ok v)]⟩ hwf' hmo hex
      (fun t htt b hb => hru t htt b (List.mem_cons_of_mem _ hb)) h2 (by omega) hlt
    refine ⟨v :: vs, st2, (placed_step hd' hp h1).trans (map_ok (f := fun vs => v :: vs) e), hrd2, fun hall => ?_⟩
    refine List.forall_mem_cons.2 ⟨h3 (hall bi (by simp [row])), hv fun b hb => hall b (List.mem_cons_of_mem _ hb)⟩
  | node bi n kids rest ihk ih =>
    intro f parent total isRoot path ctx st hwf hmo hex hru hrd hf ht
    obtain ⟨f, rfl⟩ : ∃ g, f = g + 1 := ⟨f - 1, by simp only [Forest.count] at hf; omega⟩
    simp only [Forest.count] at hf
    obtain ⟨hp, hn, hwk, hwf⟩ := hwf
    obtain ⟨hm, hmk, hmo⟩ := hmo
    obtain ⟨x1, hexk, hex⟩ := hex
    rw [show fourcc "moov" = tMoov by decide] at hm
    have hn0 := moov_payload hm hn
    subst hn0
    obtain ⟨hb, hfair, hin⟩ := placed_fair hd' hp
    obtain ⟨hwf', hlt⟩ := rest_wf hp.inParent ht hwf
    have htot : sub64 (add64 bi.offset bi.size) (bi.offset + bi.headerSize) = bi.size - bi.headerSize - 0 := by
      have := hp.whole
      unfold sub64 add64
      simp only [maxAlloc, U64] at *
      omega
    have hinit : Named initNames bi := named_init.2 (by rw [hm]; decide)
    obtain ⟨v, st1, h1, h2, h3⟩ := ok_moov (path := path ++ [bi.type])
      (children := fun co p => readStructure BoxMap.std d (divideTool ts d fuel) f (some bi) (sub64 (add64 bi.offset bi.size) co) false (path ++ [bi.type]) (childCtx bi) p)
      (st := entered { st with pos := st.pos + bi.headerSize } parent (path ++ [bi.type]) bi) (P := fun v s => Ready ts s ∧ v ≠ none) hd' hb hm hn ts (by
        intro s hs
        obtain ⟨vs, st1, e, hrd1, hv⟩ := ihk f (some bi) (sub64 (add64 bi.offset bi.size) (bi.offset + bi.headerSize)) false (path ++ [bi.type]) (childCtx bi)
          ⟨bi.offset + bi.headerSize, s, (entered { st with pos := st.pos + bi.headerSize } parent (path ++ [bi.type]) bi).log ++
            [.openBox (path ++ [bi.type]) bi (bi.offset + bi.headerSize)]⟩
          (by rw [htot]; simp only; rw [hp.offset]; exact hwk) hmk hexk
          (fun t htt b hb h => absurd h (init_not_moof (x1 b hb))) (hrd.same hs) (by omega) (by unfold sub64; exact Nat.mod_lt _ (by decide))
        exact ⟨vs, st1, e, hv x1, fun v s2 hs2 => ⟨hrd1.same hs2, by simp⟩⟩)
    have h1' : runProg BoxMap.std d (path ++ [bi.type]) bi
        (fun co p => readStructure BoxMap.std d (divideTool ts d fuel) f (some bi) (sub64 (add64 bi.offset bi.size) co) false (path ++ [bi.type]) (childCtx bi) p)
        (divideTool ts d fuel ⟨(), bi, path ++ [bi.type]⟩) 0 (entered { st with pos := st.pos + bi.headerSize } parent (path ++ [bi.type]) bi) = (.ok v, st1) := by
      unfold divideTool
      simp only
      rw [if_pos (by rw [hm]; decide), if_neg (by rw [hm]; decide)]
      exact h1
    obtain ⟨vs, st2, e, hrd2, hv⟩ := ih f parent (sub64 total bi.size) isRoot path (nextCtx ctx bi)
      ⟨st.pos + bi.size, st1.user, st1.log ++ [.leave parent (path ++ [bi.type]) bi (.ok v)]⟩ hwf' hmo hex
      (fun t htt b hb => hru t htt b (List.mem_cons_of_mem _ hb)) h2 (by omega) hlt
    refine ⟨v :: vs, st2, (placed_step hd' hp h1').trans (map_ok (f := fun vs => v :: vs) e), hrd2, fun hall => ?_⟩
    refine List.forall_mem_cons.2 ⟨h3, hv fun b hb => hall b (List.mem_cons_of_mem _ hb)⟩

/-- a well-formed file in which exactly the `moov` boxes are opened -/
theorem wf_laid (hd : d.length ≤ maxAlloc) : ∀ (F : Forest) {isRoot : Bool} {path : List BoxType} {ctx : Ctx} {pos total : Nat},
    F.WF d isRoot path ctx pos total → MoovOnly F → Laid d F isRoot path ctx pos total ∧ SaneSizes F := by
  intro F
  have seen : ∀ {bi : BoxInfo} {isRoot : Bool} {path : List BoxType} {ctx : Ctx} {pos total : Nat}, Forest.Placed d isRoot path ctx pos total bi →
      Seen d isRoot path ctx pos total bi ∧ (bi.headerSize ≤ bi.size ∧ bi.size < 2 ^ 63) ∧ endOf bi = pos + bi.size := by
    intro bi isRoot path ctx pos total hp
    obtain ⟨hb, hf, hin⟩ := placed_fair hd hp
    refine ⟨⟨hp.offset, hp.header, hp.inParent.imp id fun h => ⟨?_, h⟩, hp.own⟩, hf, ?_⟩
    · have := hb.hdr
      have := hf.1
      omega
    · unfold endOf
      rw [← hp.offset]
      simp only [maxAlloc] at hd
      omega
  induction F with
  | nil =>
    intro isRoot path ctx pos total h _
    refine ⟨?_, trivial⟩
    simp only [Forest.WF] at h
    show RowEnds d isRoot ctx pos total
    unfold RowEnds
    cases isRoot with
    | true =>
      rw [if_pos rfl] at h ⊢
      rw [h, List.drop_length]
      rfl
    | false =>
      rw [if_neg (by simp)] at h ⊢
      rcases h with h | h
      · exact ⟨by omega, .inl h⟩
      · exact ⟨h.1, .inr h.2⟩
  | leaf bi rest ih =>
    intro isRoot path ctx pos total h hm
    obtain ⟨hp, h⟩ := h
    obtain ⟨s1, s2, s3⟩ := seen hp
    obtain ⟨h1, h2⟩ := ih h hm.2
    exact ⟨⟨s1, hm.1, by rw [s3]; exact h1⟩, s2, h2⟩
  | node bi n kids rest ihk ih =>
    intro isRoot path ctx pos total h hm
    obtain ⟨hp, hn, hk, h⟩ := h
    obtain ⟨s1, s2, s3⟩ := seen hp
    obtain ⟨h1, h2⟩ := ih h hm.2.2
    obtain ⟨k1, k2⟩ := ihk hk hm.2.1
    have hn0 := moov_payload (by rw [hm.1]; decide) hn
    subst hn0
    refine ⟨⟨s1, hm.1, rfl, ?_, by rw [s3]; exact h1⟩, s2, k2, h2⟩
    have hroom : room bi (bi.offset + bi.headerSize) = bi.size - bi.headerSize - 0 := by
      have h1 := hp.inFile
      rw [← hp.offset] at h1
      unfold room
      simp only [maxAlloc] at hd
      omega
    rw [hroom, hp.offset]
    exact k1

end
end Mp4.Tool
