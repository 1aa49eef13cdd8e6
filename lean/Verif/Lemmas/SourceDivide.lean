import Verif.Lemmas.SourceEdit
import Verif.Model.SourceDivide

/-!
# `mp4tool divide` on a source compared with the same in memory
-/

namespace Mp4.Src

open Mp4 Mp4.Spec Mp4.Tool

variable {σ S P V α β : Type} {k : Rdr σ} {d : Bytes} {place : σ → Nat} {failed : σ → Option Err}

/-! ## The tracks -/

theorem videoEntry_sim (hk : Reads k d place failed) (fuel : Nat) (bi : BoxInfo) (t : BoxType) (tr : DTrack) :
    Sim place failed (videoEntry k fuel bi t tr) (Tool.videoEntry d fuel bi t tr) := by
  unfold videoEntry Tool.videoEntry
  refine sim_bind (extractBoxesWithPayload_sim hk _ _ _ _) fun bs => ?_
  cases bs with
  | nil => exact sim_pure _
  | cons x l =>
    obtain ⟨b, v⟩ := x
    simp only
    cases v.assert "VisualSampleEntry" with
    | none => exact sim_panic
    | some e => exact sim_pure _

theorem audioEntry_sim (hk : Reads k d place failed) (fuel : Nat) (bi : BoxInfo) (t : BoxType) (tr : DTrack) :
    Sim place failed (audioEntry k fuel bi t tr) (Tool.audioEntry d fuel bi t tr) := by
  unfold audioEntry Tool.audioEntry
  refine sim_bind (extractBoxes_sim hk _ _ _ _) fun bs => ?_
  obtain ⟨bis, x⟩ := bs
  cases bis with
  | nil => exact sim_pure _
  | cons x l => exact sim_pure _

theorem kindOf_sim (hk : Reads k d place failed) (fuel : Nat) (bi : BoxInfo) (id ts : Nat) : Sim place failed (kindOf k fuel bi id ts) (Tool.kindOf d fuel bi id ts) := by
  unfold kindOf Tool.kindOf
  refine sim_bind (videoEntry_sim hk _ _ _ _) fun r => ?_
  cases r with
  | some t => exact sim_pure _
  | none =>
    refine sim_bind (audioEntry_sim hk _ _ _ _) fun r => ?_
    cases r with
    | some t => exact sim_pure _
    | none =>
      refine sim_bind (videoEntry_sim hk _ _ _ _) fun r => ?_
      cases r with
      | some t => exact sim_pure _
      | none => exact audioEntry_sim hk _ _ _ _

theorem divTrack_sim (hk : Reads k d place failed) (fuel : Nat) (bi : BoxInfo) : Sim place failed (divTrack k fuel bi) (Tool.divTrack d fuel bi) := by
  unfold divTrack Tool.divTrack
  refine sim_bind (extractBoxesWithPayload_sim hk _ _ _ _) fun bs => ?_
  match bs with
  | [] => exact sim_fail _
  | _ :: _ :: _ => exact sim_fail _
  | [(_, v)] =>
    simp only
    cases v.assert "Tkhd" with
    | none => exact sim_panic
    | some tkhd =>
      simp only
      refine sim_bind (extractBoxesWithPayload_sim hk _ _ _ _) fun bs => ?_
      match bs with
      | [] => exact sim_fail _
      | _ :: _ :: _ => exact sim_fail _
      | [(_, v)] =>
        simp only
        cases v.assert "Mdhd" with
        | none => exact sim_panic
        | some mdhd => exact kindOf_sim hk _ _ _ _

theorem divLoop_sim (hk : Reads k d place failed) (fuel : Nat) : ∀ l ts, Sim place failed (divLoop k fuel l ts) (Tool.divLoop d fuel l ts)
  | [], ts => sim_pure _
  | bi :: l, ts => by
    unfold divLoop Tool.divLoop
    refine sim_bind (divTrack_sim hk _ _) fun r => ?_
    cases r with
    | some t => exact divLoop_sim hk fuel l _
    | none => exact divLoop_sim hk fuel l _

theorem divTracks_sim (hk : Reads k d place failed) (fuel : Nat) : Sim place failed (divTracks k fuel) (Tool.divTracks d fuel) :=
  sim_bind (extractBoxes_sim hk _ _ _ _) fun bs => divLoop_sim hk fuel bs.1 []

/-! ## The handler -/

variable {path : List BoxType} {bi : BoxInfo} {ch : Nat → Unit → TM DivSt (Option Sizes) (List (Option Sizes))}

/-- compared with a program in memory -/
abbrev SimV (place : σ → Nat) (failed : σ → Option Err) (d : Bytes) (path : List BoxType) (bi : BoxInfo) (ch : Nat → Unit → TM DivSt (Option Sizes) (List (Option Sizes)))
    (ms : VM σ (Option Sizes)) (g : VProg) : Prop := SimE place failed ms (Mp4.runProg BoxMap.std d path bi ch g 0)

theorem modify_simV {f : DivSt → DivSt} {ms : VM σ (Option Sizes)} {g : VProg} (h : SimV place failed d path bi ch ms g) :
    SimV place failed d path bi ch (M.modify (fun s => { s with user := f s.user }) >>= fun _ => ms) (.get fun s => .set (f s) g) := by
  intro t ht
  exact h { t with user := f t.user } ht

theorem get_simV {ms : DivSt → VM σ (Option Sizes)} {g : DivSt → VProg} (h : ∀ s, SimV place failed d path bi ch (ms s) (g s)) :
    SimV place failed d path bi ch (M.get >>= fun s => ms s.user) (.get g) := by
  intro t ht
  exact h t.user t ht

theorem set_simV {s : DivSt} {ms : VM σ (Option Sizes)} {g : VProg} (h : SimV place failed d path bi ch ms g) :
    SimV place failed d path bi ch (M.modify (fun s' => { s' with user := s }) >>= fun _ => ms) (.set s g) := by
  intro t ht
  exact h { t with user := s } ht

theorem aborts_simV (a : Abort) : SimV place failed d path bi ch (abortsS a) (aborts a) := by
  intro t ht
  exact .inl ⟨ht, place t.src, rfl, fun _ h => nomatch h⟩

theorem fail_simV (e : Err) : SimV place failed d path bi ch (M.fail e) (.err e) := .of (sim_fail _)
theorem pure_simV (x : Option Sizes) : SimV place failed d path bi ch (pure x) (.ret x) := .of (sim_pure _)

theorem extracting_simV (hk : Reads k d place failed) (fuel : Nat) (b : BoxInfo) (q : List BoxType) {gs : List (BoxInfo × BoxVal) → VM σ (Option Sizes)}
    {g : List (BoxInfo × BoxVal) → VProg} (h : ∀ l, SimV place failed d path bi ch (gs l) (g l)) :
    SimV place failed d path bi ch (extractingS k fuel b q gs) (extracting d fuel b q g) := by
  intro t ht
  have hm : Mp4.runProg BoxMap.std d path bi ch (extracting d fuel b q g) 0 (abT place t) =
      Mp4.runProg BoxMap.std d path bi ch (match (extractBoxWithPayload BoxMap.std d fuel (some b) q (place t.src)).1 with
        | .ok l => g l
        | .err e => .err e
        | .panic => aborts .panic
        | .hang => aborts .hang) 0 ⟨(extractBoxWithPayload BoxMap.std d fuel (some b) q (place t.src)).2, t.user, t.log⟩ := rfl
  rw [hm]
  unfold extractingS extractBoxWithPayload
  rcases extractBoxesWithPayload_sim hk BoxMap.std fuel (some b) [q] t.src ht with ⟨h1, h2⟩ | ⟨e, h1, h2⟩
  · rw [h2]
    generalize extractBoxesWithPayload k BoxMap.std fuel (some b) [q] t.src = x at h1 h2
    obtain ⟨o, t'⟩ := x
    cases o with
    | ok l => exact h l ⟨t', t.user, t.log⟩ h1
    | err e => exact fail_simV (path := path) (bi := bi) (ch := ch) (d := d) e ⟨t', t.user, t.log⟩ h1
    | panic => exact aborts_simV (path := path) (bi := bi) (ch := ch) (d := d) .panic ⟨t', t.user, t.log⟩ h1
    | hang => exact aborts_simV (path := path) (bi := bi) (ch := ch) (d := d) .hang ⟨t', t.user, t.log⟩ h1
  · right
    generalize extractBoxesWithPayload k BoxMap.std fuel (some b) [q] t.src = x at h1 h2
    obtain ⟨o, t'⟩ := x
    rcases h2 with h2 | h2 | h2 <;> · simp only at h2; subst h2; exact ⟨e, h1, by simp [Reported]⟩

theorem readDataOut_any (hk : Reads k d place failed) (bi : BoxInfo) (t : σ) (ht : failed t = none) :
    (failed (readDataOut k bi t).2 = none ∧ readDataP d bi ⟨none, 0⟩ (place t) = ((readDataOut k bi t).1, place (readDataOut k bi t).2)) ∨
    ∃ x b e, (readDataOut k bi t).1 = .ok (.error x, b) ∧ failed (readDataOut k bi t).2 = some e ∧ Reported e (.err x : Out Unit) := by
  unfold readDataOut readDataP
  rcases seekToPayload_sim hk bi t ht with ⟨h1, h2⟩ | ⟨e, h1, h2⟩
  · rw [h2]
    generalize seekToPayload k bi t = x at h1 h2
    obtain ⟨o, t1⟩ := x
    simp only at h1
    cases o with
    | err e => exact .inl ⟨h1, rfl⟩
    | panic => exact .inl ⟨h1, rfl⟩
    | hang => exact .inl ⟨h1, rfl⟩
    | ok q =>
      simp only
      unfold copyNP
      generalize sub64 bi.size bi.headerSize = n
      by_cases hn : n = 0 ∨ 2 ^ 63 ≤ n
      · simp only [if_pos hn]
        exact .inl ⟨h1, trivial⟩
      · simp only [if_neg hn]
        rcases copyOut_any hk (n + k.fuel) n [] t1 h1 (by rw [hk.fuel]; omega) with ⟨t2, i1, i2, i3⟩ | ⟨t2, b, e, i1, i2⟩
        · left
          rw [i1]
          have hl : ((d.drop (place t1)).take n).length = min n (d.length - place t1) := by rw [List.length_take, List.length_drop]
          by_cases hc : n ≤ d.length - place t1
          · rw [if_pos hc, if_neg (by omega)]
            exact ⟨i2, by rw [i3]; rfl⟩
          · rw [if_neg hc, if_pos (by omega)]
            exact ⟨i2, by rw [i3]; rfl⟩
        · right
          rw [i1]
          exact ⟨e, b, e, rfl, i2, .inl rfl⟩
  · right
    generalize seekToPayload k bi t = x at h1 h2
    obtain ⟨o, t1⟩ := x
    simp only at h1 h2
    rcases h2 with h2 | h2 | h2 <;> · subst h2; exact ⟨_, _, e, rfl, h1, by simp [Reported]⟩

theorem receiving_simV (hk : Reads k d place failed) (wr : Bytes → DivSt → DivSt) {gs : Nat → VM σ (Option Sizes)} {g : Nat → VProg}
    (h : ∀ n, SimV place failed d path bi ch (gs n) (g n)) {f : Except Err Nat → Bytes → VProg}
    (hf : ∀ r b, f r b = .get fun s => .set (wr b s) (match r with | .error e => .err e | .ok n => g n)) :
    SimV place failed d path bi ch (receiving k bi wr gs) (.readData ⟨none, 0⟩ f) := by
  intro t ht
  unfold receiving
  have hm : Mp4.runProg BoxMap.std d path bi ch (.readData ⟨none, 0⟩ f) 0 (abT place t) =
      (liftP (readDataP d bi ⟨none, 0⟩) >>= fun x => Mp4.runProg BoxMap.std d path bi ch (f x.1 x.2) 0 : TM DivSt (Option Sizes) (Option Sizes)) (abT place t) := rfl
  rw [hm, M.bind_run, M.bind_run]
  unfold liftT liftP
  rw [show (abT place t).pos = place t.src from rfl]
  rcases readDataOut_any hk bi t.src ht with ⟨h1, h2⟩ | ⟨x, b, e, h1, h2, h3⟩
  · rw [h2]
    generalize readDataOut k bi t.src = x at h1 h2
    obtain ⟨o, t'⟩ := x
    simp only at h1
    cases o with
    | ok x =>
      obtain ⟨r, b⟩ := x
      simp only
      rw [hf]
      cases r with
      | error e => exact modify_simV (f := wr b) (path := path) (bi := bi) (ch := ch) (d := d) (fail_simV e) ⟨t', t.user, t.log⟩ h1
      | ok n => exact modify_simV (f := wr b) (path := path) (bi := bi) (ch := ch) (d := d) (h n) ⟨t', t.user, t.log⟩ h1
    | err e => exact .inl ⟨h1, place t', rfl, fun _ h => nomatch h⟩
    | panic => exact .inl ⟨h1, place t', rfl, fun _ h => nomatch h⟩
    | hang => exact .inl ⟨h1, place t', rfl, fun _ h => nomatch h⟩
  · right
    generalize readDataOut k bi t.src = y at h1 h2
    obtain ⟨o, t'⟩ := y
    simp only at h1 h2
    subst h1
    refine ⟨e, h2, ?_⟩
    show Reported e (Out.err x : Out (Option Sizes))
    rcases h3 with h | h | h <;> · injection h with h; subst h; simp [Reported]

theorem finish_simV (rows : List Row) : SimV place failed d path bi ch (finishS rows) (finish rows) :=
  get_simV (ms := fun s => M.modify (fun s' => { s' with user := (finishHeaders rows s).2 }) >>= fun _ => pure (some (finishHeaders rows s).1)) fun _ => set_simV (pure_simV _)

theorem copyPayload_simV (hk : Reads k d place failed) : ∀ l rows, SimV place failed d path bi ch (copyPayloadS k bi l rows) (copyPayload l rows finish)
  | [], rows => finish_simV rows
  | r :: l, rows => receiving_simV hk (initWrite r.track) (fun n => copyPayload_simV hk l _) fun r b => by cases r <;> rfl

theorem moovDone_plain (rows : List Row) : Plain (.expand () (moovDone rows) : VProg) := by
  refine ⟨fun _ => rfl, fun l => ?_⟩
  unfold moovDone
  dsimp only
  cases addSizes l rows with
  | none => exact fun _ => trivial
  | some rows => exact fun _ => trivial

theorem initBox_simV (hk : Reads k d place failed) {chs : Nat → Unit → VM σ (List (Option Sizes))} (hch : ∀ co p, SimE place failed (chs co p) (ch co p)) (sel : List DTrack) :
    SimV place failed d path bi ch (initBoxS k path bi chs sel) (initBox bi sel) := by
  refine get_simV (ms := fun s => M.modify (fun s' => { s' with user := (startHeaders bi sel s).2 }) >>= fun _ =>
    if bi.type = tMoov then runProg k BoxMap.std path bi chs (.expand () (moovDone (startHeaders bi sel s).1)) 0
    else copyPayloadS k bi (startHeaders bi sel s).1 []) fun s => set_simV ?_
  by_cases h : bi.type = tMoov
  · rw [if_pos h, if_pos h]
    exact runProg_simE hk _ _ _ hch _ 0 (moovDone_plain _)
  · rw [if_neg h, if_neg h]
    exact copyPayload_simV hk _ _

theorem initTrak_simV (hk : Reads k d place failed) {chs : Nat → Unit → VM σ (List (Option Sizes))} (hch : ∀ co p, SimE place failed (chs co p) (ch co p)) (ts : List DTrack)
    (l : List (BoxInfo × BoxVal)) : SimV place failed d path bi ch (initTrakS k ts path bi chs l) (initTrak ts bi l) := by
  match l with
  | [] => exact fail_simV _
  | _ :: _ :: _ => exact fail_simV _
  | [(_, v)] =>
    unfold initTrakS initTrak
    simp only
    cases v.assert "Tkhd" with
    | none => exact aborts_simV _
    | some tkhd => exact initBox_simV hk hch _

theorem copyMedia_simV (hk : Reads k d place failed) (t : DTrack) : SimV place failed d path bi ch (copyMediaS k t bi) (copyMedia t bi) :=
  modify_simV (f := segWrite t (boxInfoBytes bi)) (receiving_simV hk (segWrite t) (g := fun _ => .ret none) (fun _ => pure_simV _) fun r b => by cases r <;> rfl)

theorem moofRun_simV (hk : Reads k d place failed) (t : DTrack) (tfhd : SV) (l : List (BoxInfo × BoxVal)) :
    SimV place failed d path bi ch (moofRunS k t bi tfhd l) (moofRun t bi tfhd l) := by
  match l with
  | [] => exact aborts_simV _
  | (_, v) :: _ =>
    unfold moofRunS moofRun
    simp only
    cases v.assert "Trun" with
    | none => exact aborts_simV _
    | some trun => exact modify_simV (f := nextSegment t (fragDuration tfhd trun)) (copyMedia_simV hk t)

theorem moofHead_simV (hk : Reads k d place failed) (ts : List DTrack) (fuel : Nat) (l : List (BoxInfo × BoxVal)) :
    SimV place failed d path bi ch (moofHeadS k ts fuel bi l) (moofHead ts d fuel bi l) := by
  match l with
  | [] => exact fail_simV _
  | _ :: _ :: _ => exact fail_simV _
  | [(_, v)] =>
    unfold moofHeadS moofHead
    simp only
    cases v.assert "Tfhd" with
    | none => exact aborts_simV _
    | some tfhd =>
      refine modify_simV (f := fun s => { s with curr := tfhd.uint "TrackID" }) ?_
      cases trackBy ts (tfhd.uint "TrackID") with
      | none => exact pure_simV _
      | some t => exact extracting_simV hk _ _ _ fun l => moofRun_simV hk t tfhd l

theorem mdatBox_simV (hk : Reads k d place failed) (ts : List DTrack) : SimV place failed d path bi ch (mdatBoxS k ts bi) (mdatBox ts bi) := by
  intro t ht
  have hs : ∀ s : DivSt, SimV place failed d path bi ch (match trackBy ts s.curr with
      | none => pure none
      | some t =>
        if s.durs t.id = [] then abortsS .panic
        else do
          M.modify fun s' => { s' with user := noteRate t bi s }
          copyMediaS k t bi) (match trackBy ts s.curr with
      | none => .ret none
      | some t => if s.durs t.id = [] then aborts .panic else .set (noteRate t bi s) (copyMedia t bi)) := by
    intro s
    cases trackBy ts s.curr with
    | none => exact pure_simV _
    | some t =>
      simp only
      by_cases h : s.durs t.id = []
      · rw [if_pos h, if_pos h]; exact aborts_simV _
      · rw [if_neg h, if_neg h]; exact set_simV (copyMedia_simV hk t)
  have e : mdatBoxS k ts bi t = (match trackBy ts t.user.curr with
      | none => pure none
      | some u =>
        if t.user.durs u.id = [] then abortsS .panic
        else do
          M.modify fun s' => { s' with user := noteRate u bi t.user }
          copyMediaS k u bi) t := by
    unfold mdatBoxS
    rw [M.bind_ok (M.get_run _)]
    cases trackBy ts t.user.curr with
    | none => rfl
    | some u =>
      simp only
      by_cases h : t.user.durs u.id = []
      · rw [if_pos h, if_pos h]
      · rw [if_neg h, if_neg h]; rfl
  rw [e]
  exact hs t.user t ht

theorem divideAct_simE (hk : Reads k d place failed) (ts : List DTrack) (fuel : Nat) (bi : BoxInfo) (path : List BoxType) (p : Unit)
    (chs : Nat → Unit → VM σ (List (Option Sizes))) (ch : Nat → Unit → TM DivSt (Option Sizes) (List (Option Sizes)))
    (hch : ∀ co p, SimE place failed (chs co p) (ch co p)) :
    SimE place failed (divideAct k ts fuel bi path p chs) (Mp4.runProg BoxMap.std d path bi ch (divideTool ts d fuel ⟨p, bi, path⟩) 0) := by
  unfold divideAct divideTool
  by_cases h1 : initTypes.any (fun t => decide (bi.type = t)) = true
  · simp only [if_pos h1]
    by_cases h2 : bi.type = tTrak
    · simp only [if_pos h2]
      exact extracting_simV hk _ _ _ fun l => initTrak_simV hk hch ts l
    · simp only [if_neg h2]
      exact initBox_simV hk hch ts
  simp only [if_neg h1]
  by_cases h2 : bi.type = tMoof
  · simp only [if_pos h2]
    exact extracting_simV hk _ _ _ fun l => moofHead_simV hk ts fuel l
  simp only [if_neg h2]
  by_cases h3 : bi.type = tMdat
  · simp only [if_pos h3]
    exact mdatBox_simV hk ts
  simp only [if_neg h3]
  by_cases h4 : bi.type = tMfra
  · simp only [if_pos h4]
    exact pure_simV _
  · simp only [if_neg h4]
    exact fail_simV _

theorem divideRun_any (hk : Reads k d place failed) (ts : List DTrack) (fuel : Nat) (t : σ) (ht : failed t = none) :
    (failed (divideRun k ts fuel t).2.2 = none ∧ Tool.divideRun ts d fuel (place t) = ((divideRun k ts fuel t).1, (divideRun k ts fuel t).2.1)) ∨
    ∃ e, failed (divideRun k ts fuel t).2.2 = some e ∧ (divideRun k ts fuel t).1 ≠ .ok () := by
  unfold divideRun Tool.divideRun
  have hs := simE_bind (SimE.of (liftT_sim (S := DivSt) (V := Option Sizes) (seekStart_simP hk 0))) fun _ =>
    readStructureAct_simE hk BoxMap.std (divideTool ts d fuel) (divideAct k ts fuel) (fun bi path p chs ch hch => (divideAct_simE hk ts fuel bi path p chs ch hch).toA)
      fuel none 0 true [] {} ()
  rcases hs ⟨t, .created, []⟩ ht with ⟨h1, p, h2, -⟩ | ⟨e, h1, h2⟩
  · left
    have h2' : Mp4.readBoxStructure BoxMap.std d (divideTool ts d fuel) fuel () ⟨place t, .created, []⟩ = _ := h2
    rw [h2']
    generalize (liftT (seekStart k.src 0) >>= fun _ => readStructureAct k BoxMap.std (divideAct k ts fuel) fuel none 0 true [] {} ()) (⟨t, .created, []⟩ : TS σ DivSt (Option Sizes)) = x at h1
    obtain ⟨o, s⟩ := x
    cases o <;> exact ⟨h1, rfl⟩
  · right
    generalize (liftT (seekStart k.src 0) >>= fun _ => readStructureAct k BoxMap.std (divideAct k ts fuel) fuel none 0 true [] {} ()) (⟨t, .created, []⟩ : TS σ DivSt (Option Sizes)) = x at h1 h2
    obtain ⟨o, s⟩ := x
    simp only at h1 h2
    have : ∃ x, o = .err x := by rcases h2 with h | h | h <;> exact ⟨_, h⟩
    obtain ⟨x, rfl⟩ := this
    refine ⟨e, h1, ?_⟩
    simp only
    cases s.user.abort with
    | none => exact fun h => nomatch h
    | some st => cases st <;> exact fun h => nomatch h

theorem divide_any (hk : Reads k d place failed) (fuel : Nat) (t : σ) (ht : failed t = none) (h0 : place t = 0) :
    (failed (divide k fuel t).2.2.2 = none ∧ Tool.divide d fuel = ((divide k fuel t).1, (divide k fuel t).2.1, (divide k fuel t).2.2.1)) ∨
    ∃ e, failed (divide k fuel t).2.2.2 = some e ∧ (divide k fuel t).1 ≠ .ok () := by
  unfold divide Tool.divide
  rcases divTracks_sim hk fuel t ht with ⟨h1, h2⟩ | ⟨e, h1, h2⟩
  · rw [h0] at h2
    rw [h2]
    generalize divTracks k fuel t = x at h1
    obtain ⟨o, t1⟩ := x
    cases o with
    | ok ts =>
      rcases divideRun_any hk ts fuel t1 h1 with ⟨h3, h4⟩ | h3
      · left
        simp only
        rw [h4]
        exact ⟨h3, rfl⟩
      · exact .inr h3
    | err e => exact .inl ⟨h1, rfl⟩
    | panic => exact .inl ⟨h1, rfl⟩
    | hang => exact .inl ⟨h1, rfl⟩
  · right
    generalize divTracks k fuel t = x at h1 h2
    obtain ⟨o, t1⟩ := x
    simp only at h1 h2
    have : ∃ x, o = .err x := by rcases h2 with h | h | h <;> exact ⟨_, h⟩
    obtain ⟨x, rfl⟩ := this
    exact ⟨e, h1, fun h => nomatch h⟩

end Mp4.Src
