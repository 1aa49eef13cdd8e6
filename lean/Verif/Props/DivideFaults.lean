import Verif.Model.DivideFaults
import Verif.Props.WriteFaults
import Verif.Lemmas.Extract
import Verif.Props.DivideBoxes

/-!
# C95: `mp4tool divide` reports success only if everything could be written
-/

namespace Mp4.Props

open Mp4 Mp4.Spec Mp4.Tool

section
variable {d : Bytes} {path : List BoxType} {bi : BoxInfo} {ch1 ch2 : Nat → Unit → TM DivSt (Option Sizes) (List (Option Sizes))}

/-- no counter is needed -/
def noCount (_ : DivSt) : Nat := 0

/-- If the first program returns a value, so does the second, with the same effects. -/
def Same (d : Bytes) (path : List BoxType) (bi : BoxInfo) (ch1 ch2 : Nat → Unit → TM DivSt (Option Sizes) (List (Option Sizes))) (g1 g2 : VProg) : Prop :=
  ∀ co st v st', runProg BoxMap.std d path bi ch1 g1 co st = (.ok v, st') → runProg BoxMap.std d path bi ch2 g2 co st = (.ok v, st')

theorem same_err (e : Err) (g : VProg) : Same d path bi ch1 ch2 (.err e) g := fun _ _ _ _ h => nomatch h
theorem same_value (v : Option Sizes) : Same d path bi ch1 ch2 (.ret v) (.ret v) := fun _ _ _ _ h => h
theorem same_aborts (a : Abort) (g : VProg) : Same d path bi ch1 ch2 (aborts a) g := fun _ _ _ _ h => nomatch h

theorem same_trying {F : DivFaults} {o : FileOp} {g1 g2 : VProg} (h : Same d path bi ch1 ch2 g1 g2) : Same d path bi ch1 ch2 (trying F o g1) g2 := by
  intro co st v st' h0
  have h0 : runProg BoxMap.std d path bi ch1 (match F.fails st.user o with | none => g1 | some _ => .err .sink) co st = (.ok v, st') := h0
  cases hF : F.fails st.user o with
  | none => rw [hF] at h0; exact h co st v st' h0
  | some n => rw [hF] at h0; cases h0

theorem same_writing {F : DivFaults} {o : FileOp} {wr : Bytes → DivSt → DivSt} {b : Bytes} {g1 g2 : VProg} (h : Same d path bi ch1 ch2 g1 g2) :
    Same d path bi ch1 ch2 (writingTo F o wr b g1) (.get fun s => .set (wr b s) g2) := by
  intro co st v st' h0
  have h0 : runProg BoxMap.std d path bi ch1 (match F.fails st.user o with | none => .set (wr b st.user) g1 | some n => .set (wr (b.take n) st.user) (.err .sink)) co st = (.ok v, st') := h0
  cases hF : F.fails st.user o with
  | none => rw [hF] at h0; exact h co { st with user := wr b st.user } v st' h0
  | some n => rw [hF] at h0; cases h0

/-- A destination that fails leads to an error; otherwise it has received everything. -/
theorem readData_taken {w : Dest} {pos p n : Nat} {b : Bytes} (h : readDataP d bi w pos = (.ok (.ok n, b), p)) : readDataP d bi ⟨none, 0⟩ pos = (.ok (.ok n, b), p) := by
  unfold readDataP at h ⊢
  cases hs : bi.seekToPayload pos with
  | mk o q =>
    rw [hs] at h
    cases o with
    | err e => simp only at h; cases h
    | panic => simp only at h; cases h
    | hang => simp only at h; cases h
    | ok x =>
      simp only at h ⊢
      cases hc : w.cap with
      | none => rw [hc] at h; exact h
      | some c =>
        rw [hc] at h
        simp only at h
        split at h
        · cases h
        · exact h

theorem same_copying {F : DivFaults} {o : FileOp} {wr : Bytes → DivSt → DivSt} {g1 g2 : Nat → VProg} (h : ∀ n, Same d path bi ch1 ch2 (g1 n) (g2 n))
    {f : Except Err Nat → Bytes → VProg} (hf : ∀ r b, f r b = .get fun s => .set (wr b s) (match r with | .error e => .err e | .ok n => g2 n)) :
    Same d path bi ch1 ch2 (copyingTo F o wr g1) (.readData ⟨none, 0⟩ f) := by
  intro co st v st' h0
  have h0 : (liftP (readDataP d bi ⟨F.fails st.user o, F.stops st.user o⟩) >>= fun x => runProg BoxMap.std d path bi ch1
    (.get fun s => .set (wr x.2 s) (match x.1 with | .error e => .err e | .ok n => g1 n)) co) st = (.ok v, st') := h0
  obtain ⟨⟨r, b⟩, s1, h1, h2⟩ := bind_ok_inv h0
  cases r with
  | error e => cases h2
  | ok n =>
    have h2 : runProg BoxMap.std d path bi ch1 (g1 n) co { s1 with user := wr b s1.user } = (.ok v, st') := h2
    have hx : liftP (readDataP d bi ⟨none, 0⟩) st = (.ok (.ok n, b), s1) := by
      unfold liftP at h1 ⊢
      cases hx : readDataP d bi ⟨F.fails st.user o, F.stops st.user o⟩ st.pos with
      | mk o q =>
        rw [hx] at h1
        cases o with
        | ok y =>
          injection h1 with e1 e2
          injection e1 with e1
          subst e1
          rw [readData_taken hx]
          exact Prod.ext rfl e2
        | err e => cases h1
        | panic => cases h1
        | hang => cases h1
    have : runProg BoxMap.std d path bi ch2 (.readData ⟨none, 0⟩ f) co st = (liftP (readDataP d bi ⟨none, 0⟩) >>= fun x => runProg BoxMap.std d path bi ch2 (f x.1 x.2) co) st := rfl
    rw [this, M.bind_ok hx, hf]
    exact h n co { s1 with user := wr b s1.user } v st' h2

theorem same_start (F : DivFaults) (b : BoxInfo) {g1 g2 : List Row → VProg} (h : ∀ rows, Same d path bi ch1 ch2 (g1 rows) (g2 rows)) : ∀ (l : List DTrack) (rows : List Row),
    Same d path bi ch1 ch2 (startHeadersF F b l rows g1) (.get fun s => .set (startHeaders b l s).2 (g2 (rows ++ (startHeaders b l s).1)))
  | [], rows => by
    intro co st v st' h0
    have := h rows co st v st' h0
    show runProg BoxMap.std d path bi ch2 (g2 (rows ++ [])) co st = _
    rw [List.append_nil]
    exact this
  | t :: l, rows => by
    refine same_trying ?_
    intro co st v st' h0
    have h1 := (same_trying (same_writing (F := F) (wr := initWrite t) (same_start F b h l _))) co { st with user := initSeek t (st.user.inits t.kind).length st.user } v st' h0
    have h2 : runProg BoxMap.std d path bi ch2 (g2 ((rows ++ [⟨t, (st.user.inits t.kind).length,
          { boxInfoWritten b (st.user.inits t.kind).length with size := (boxInfoWritten b (st.user.inits t.kind).length).headerSize }⟩]) ++
        (startHeaders b l (initWrite t (boxInfoBytes b) (initSeek t (st.user.inits t.kind).length st.user))).1)) co
        { st with user := (startHeaders b l (initWrite t (boxInfoBytes b) (initSeek t (st.user.inits t.kind).length st.user))).2 } = (.ok v, st') := h1
    rw [List.append_assoc] at h2
    exact h2

theorem same_finish (F : DivFaults) : ∀ (l : List Row) (ci : Sizes),
    Same d path bi ch1 ch2 (finishF F l ci) (.get fun s => .set (finishHeaders l s).2 (.ret (some (ci ++ (finishHeaders l s).1))))
  | [], ci => by
    intro co st v st' h0
    show runProg BoxMap.std d path bi ch2 (.ret (some (ci ++ []))) co st = _
    rw [List.append_nil]
    exact h0
  | r :: l, ci => by
    refine same_trying ?_
    intro co st v st' h0
    have h1 := (same_trying (same_writing (F := F) (wr := initWrite r.track) (same_finish F l _))) co { st with user := initSeek r.track r.offset st.user } v st' h0
    have h2 : runProg BoxMap.std d path bi ch2 (.ret (some ((ci ++ [(r.track.id, (boxInfoWritten r.info r.offset).size)]) ++
        (finishHeaders l (initWrite r.track (boxInfoBytes r.info) (initSeek r.track r.offset st.user))).1))) co
        { st with user := (finishHeaders l (initWrite r.track (boxInfoBytes r.info) (initSeek r.track r.offset st.user))).2 } = (.ok v, st') := h1
    rw [List.append_assoc] at h2
    exact h2

theorem same_finished (F : DivFaults) (rows : List Row) : Same d path bi ch1 ch2 (finishF F rows []) (Tool.finish rows) := same_finish F rows []

theorem same_payload (F : DivFaults) : ∀ (l rows : List Row), Same d path bi ch1 ch2 (copyPayloadF F l rows fun rows => finishF F rows []) (copyPayload l rows Tool.finish)
  | [], rows => same_finished F rows
  | r :: l, rows => same_copying (fun n => same_payload F l _) fun x b => by cases x <;> rfl

theorem same_expandD (hch : ∀ co p, OkSame (counter noCount) (ch1 co p) (ch2 co p)) {k1 k2 : Except Err (List (Option Sizes)) → VProg}
    (he : ∀ e, Same d path bi ch1 ch2 (k1 (.error e)) (k2 (.error e))) (hv : ∀ e g, Same d path bi ch1 ch2 (k1 (.error e)) g)
    (hk : ∀ vs, Same d path bi ch1 ch2 (k1 (.ok vs)) (k2 (.ok vs))) : Same d path bi ch1 ch2 (.expand () k1) (.expand () k2) := by
  intro co st v st' h
  rw [runProg] at h ⊢
  obtain ⟨r, s1, h1, h2⟩ := bind_ok_inv h
  rw [M.bind_ok h1]
  cases r with
  | error e => exact he e co s1 v st' h2
  | ok co' =>
    simp only at h2 ⊢
    obtain ⟨u, s2, h3, h4⟩ := bind_ok_inv h2
    obtain ⟨r, s3, h5, h6⟩ := bind_ok_inv h4
    obtain ⟨u', s4, h7, h8⟩ := bind_ok_inv h6
    rw [M.bind_ok h3]
    cases r with
    | error e => exact absurd (hv e (.err .eof) co' s4 v st' h8) (by intro h; cases h)
    | ok vs =>
      have hx : ch1 co' () s2 = (.ok vs, s3) := by
        unfold tryM at h5
        cases e : ch1 co' () s2 with
        | mk r t =>
          rw [e] at h5
          cases r <;> cases h5
          rfl
      have hy : tryM (ch2 co' ()) s2 = (.ok (.ok vs), s3) := by unfold tryM; rw [(hch _ _ _ _ _ hx).1]
      rw [M.bind_ok hy, M.bind_ok h7]
      exact hk vs co' s4 v st' h8

theorem same_initBox (F : DivFaults) (hch : ∀ co p, OkSame (counter noCount) (ch1 co p) (ch2 co p)) (sel : List DTrack) :
    Same d path bi ch1 ch2 (initBoxF F bi sel) (initBox bi sel) := by
  refine same_start F bi (g2 := fun rows => if bi.type = tMoov then .expand () (moovDone rows) else copyPayload rows [] Tool.finish) (fun rows => ?_) sel []
  by_cases h : bi.type = tMoov
  · simp only [if_pos h]
    refine same_expandD hch (fun e => same_err _ _) (fun e g => same_err _ _) fun vs => ?_
    unfold moovDoneF moovDone
    simp only
    cases addSizes vs rows with
    | none => exact same_aborts _ _
    | some rows => exact same_finished F rows
  · simp only [if_neg h]
    exact same_payload F rows []

theorem same_initTrak (F : DivFaults) (hch : ∀ co p, OkSame (counter noCount) (ch1 co p) (ch2 co p)) (ts : List DTrack) (l : List (BoxInfo × BoxVal)) :
    Same d path bi ch1 ch2 (initTrakF F ts bi l) (initTrak ts bi l) := by
  match l with
  | [] => exact same_err _ _
  | _ :: _ :: _ => exact same_err _ _
  | [(_, v)] =>
    unfold initTrakF initTrak
    simp only
    cases v.assert "Tkhd" with
    | none => exact same_aborts _ _
    | some tkhd => exact same_initBox F hch _

theorem same_media (F : DivFaults) (t : DTrack) : Same d path bi ch1 ch2 (copyMediaF F t bi) (copyMedia t bi) :=
  same_trying (same_writing (same_copying (g2 := fun _ => .ret none) (fun _ => same_value _) fun x b => by cases x <;> rfl))

theorem same_update {f : DivSt → DivSt} {g1 g2 : VProg} (h : Same d path bi ch1 ch2 g1 g2) : Same d path bi ch1 ch2 (.get fun s => .set (f s) g1) (.get fun s => .set (f s) g2) :=
  fun co st v st' h0 => h co { st with user := f st.user } v st' h0

theorem same_extracting {fuel : Nat} {b : BoxInfo} {q : List BoxType} {g1 g2 : List (BoxInfo × BoxVal) → VProg} (h : ∀ l, Same d path bi ch1 ch2 (g1 l) (g2 l)) :
    Same d path bi ch1 ch2 (extracting d fuel b q g1) (extracting d fuel b q g2) := by
  intro co st v st' h0
  have h0 : runProg BoxMap.std d path bi ch1 (match (extractBoxWithPayload BoxMap.std d fuel (some b) q st.pos).1 with
    | .ok l => g1 l
    | .err e => .err e
    | .panic => aborts .panic
    | .hang => aborts .hang) co { st with pos := (extractBoxWithPayload BoxMap.std d fuel (some b) q st.pos).2 } = (.ok v, st') := h0
  show runProg BoxMap.std d path bi ch2 (match (extractBoxWithPayload BoxMap.std d fuel (some b) q st.pos).1 with
    | .ok l => g2 l
    | .err e => .err e
    | .panic => aborts .panic
    | .hang => aborts .hang) co { st with pos := (extractBoxWithPayload BoxMap.std d fuel (some b) q st.pos).2 } = (.ok v, st')
  cases hx : (extractBoxWithPayload BoxMap.std d fuel (some b) q st.pos).1 with
  | ok l => rw [hx] at h0; exact h l co _ v st' h0
  | err e => rw [hx] at h0; cases h0
  | panic => rw [hx] at h0; cases h0
  | hang => rw [hx] at h0; cases h0

theorem same_moofRun (F : DivFaults) (t : DTrack) (tfhd : SV) (l : List (BoxInfo × BoxVal)) : Same d path bi ch1 ch2 (moofRunF F t bi tfhd l) (moofRun t bi tfhd l) := by
  match l with
  | [] => exact same_aborts _ _
  | (_, v) :: _ =>
    unfold moofRunF moofRun
    simp only
    cases v.assert "Trun" with
    | none => exact same_aborts _ _
    | some trun => exact same_trying (same_update (f := nextSegment t (fragDuration tfhd trun)) (same_media F t))

theorem same_moofHead (F : DivFaults) (ts : List DTrack) (fuel : Nat) (l : List (BoxInfo × BoxVal)) : Same d path bi ch1 ch2 (moofHeadF F ts d fuel bi l) (moofHead ts d fuel bi l) := by
  match l with
  | [] => exact same_err _ _
  | _ :: _ :: _ => exact same_err _ _
  | [(_, v)] =>
    unfold moofHeadF moofHead
    simp only
    cases v.assert "Tfhd" with
    | none => exact same_aborts _ _
    | some tfhd =>
      refine same_update (f := fun s => { s with curr := tfhd.uint "TrackID" }) ?_
      cases trackBy ts (tfhd.uint "TrackID") with
      | none => exact same_value _
      | some t => exact same_extracting fun l => same_moofRun F t tfhd l

theorem same_mdat (F : DivFaults) (ts : List DTrack) : Same d path bi ch1 ch2 (mdatBoxF F ts bi) (mdatBox ts bi) := by
  intro co st v st' h0
  have h0 : runProg BoxMap.std d path bi ch1 (match trackBy ts st.user.curr with
    | none => .ret none
    | some t => if st.user.durs t.id = [] then aborts .panic else .set (noteRate t bi st.user) (copyMediaF F t bi)) co st = (.ok v, st') := h0
  show runProg BoxMap.std d path bi ch2 (match trackBy ts st.user.curr with
    | none => .ret none
    | some t => if st.user.durs t.id = [] then aborts .panic else .set (noteRate t bi st.user) (copyMedia t bi)) co st = (.ok v, st')
  cases ht : trackBy ts st.user.curr with
  | none => rw [ht] at h0; exact h0
  | some t =>
    rw [ht] at h0
    simp only at h0 ⊢
    by_cases hd : st.user.durs t.id = []
    · rw [if_pos hd] at h0; cases h0
    · rw [if_neg hd] at h0 ⊢
      exact same_media F t co { st with user := noteRate t bi st.user } v st' h0

end

theorem divide_handlers (F : DivFaults) (ts : List DTrack) (d : Bytes) (fuel : Nat) :
    SameHandlers noCount BoxMap.std d (fun _ => True) (divideToolF F ts d fuel) (divideTool ts d fuel) := by
  intro p path bi ch1 ch2 _ hch st v st' h
  refine ⟨?_, Nat.le_refl 0⟩
  unfold divideToolF at h
  unfold divideTool
  dsimp only at h ⊢
  by_cases h1 : initTypes.any (fun t => decide (bi.type = t)) = true
  · rw [if_pos h1] at h ⊢
    by_cases h2 : bi.type = tTrak
    · rw [if_pos h2] at h ⊢
      exact same_extracting (fun l => same_initTrak F hch ts l) 0 st v st' h
    · rw [if_neg h2] at h ⊢
      exact same_initBox F hch ts 0 st v st' h
  rw [if_neg h1] at h ⊢
  by_cases h2 : bi.type = tMoof
  · rw [if_pos h2] at h ⊢
    exact same_extracting (fun l => same_moofHead F ts fuel l) 0 st v st' h
  rw [if_neg h2] at h ⊢
  by_cases h3 : bi.type = tMdat
  · rw [if_pos h3] at h ⊢
    exact same_mdat F ts 0 st v st' h
  rw [if_neg h3] at h ⊢
  by_cases h4 : bi.type = tMfra
  · rw [if_pos h4] at h ⊢
    exact h
  · rw [if_neg h4] at h
    cases h

/-- **C95** — Whatever calls on the output files may fail: if `divide` reports success, it does so without failures, too, with the same tracks and files. -/
theorem divide_success (F : DivFaults) (d : Bytes) (fuel : Nat) (ts : List DTrack) (s : DivSt) (h : divideF F d fuel = (.ok (), ts, s)) :
    divide d fuel = (.ok (), ts, s) := by
  unfold divideF at h
  unfold divide
  cases hx : divTracks d fuel 0 with
  | mk o pos =>
    rw [hx] at h
    cases o with
    | err e => simp only [Prod.mk.injEq] at h; cases h.1
    | panic => simp only [Prod.mk.injEq] at h; cases h.1
    | hang => simp only [Prod.mk.injEq] at h; cases h.1
    | ok us =>
      simp only at h ⊢
      split at h
      · simp only [Prod.mk.injEq] at h; cases h.1
      · simp only [Prod.mk.injEq] at h
        obtain ⟨h1, h2, h3⟩ := h
        have hr : divideRun us d fuel pos = (.ok (), s) := by
          unfold divideRunF at h1 h3
          unfold divideRun
          cases hy : readBoxStructure BoxMap.std d (divideToolF F us d fuel) fuel () ⟨pos, .created, []⟩ with
          | mk o st =>
            rw [hy] at h1 h3
            cases o with
            | ok vs =>
              rw [(same_readBoxStructure known_true (divide_handlers F us d fuel) fuel () _ _ _ hy).1]
              exact Prod.ext rfl h3
            | err e =>
              exfalso
              simp only at h1
              cases ha : st.user.abort with
              | none => rw [ha] at h1; cases h1
              | some a => rw [ha] at h1; cases a <;> cases h1
            | panic => simp only at h1; cases h1
            | hang => simp only at h1; cases h1
        rw [hr, h2]

/-- **C95**, with C82 — So after success nothing is missing: for a file written as a row of boxes whose tracks are of different kinds, `init.mp4` of a track has exactly its boxes, and its segments are
exactly its fragments. -/
theorem divide_success_boxes (F : DivFaults) (B : Boxes) (hok : B.Ok true false {}) (hn : B.Neutral) (hraw : B.Unknown true {}) (hlen : (B.ser true {}).length ≤ 2 ^ 48) (fuel : Nat)
    (hf : (B.forest true {} 0).count < fuel) (ts : List DTrack) (s : DivSt) (h : divideF F (B.ser true {}) fuel = (.ok (), ts, s))
    (hk : ts.Pairwise fun a b => a.kind ≠ b.kind) (t : DTrack) (ht : t ∈ ts) :
    s.inits t.kind = (B.initOf t.id).ser true {} ∧ segmentFiles s t = (B.segmentsOf t.id).map (·.ser true {}) :=
  have := divide_boxes B hok hn hraw hlen fuel hf ts s (divide_success F _ fuel ts s h) hk t ht
  ⟨this.1, this.2.2.2.1⟩

/-! ## Without failures -/

section
variable {d : Bytes} {path : List BoxType} {bi : BoxInfo} {ch : Nat → Unit → TM DivSt (Option Sizes) (List (Option Sizes))}

/-- The programs do the same. -/
def Does (d : Bytes) (path : List BoxType) (bi : BoxInfo) (ch : Nat → Unit → TM DivSt (Option Sizes) (List (Option Sizes))) (g1 g2 : VProg) : Prop :=
  ∀ co st, runProg BoxMap.std d path bi ch g1 co st = runProg BoxMap.std d path bi ch g2 co st

variable {F : DivFaults} (hF : ∀ s o, F.fails s o = none)
include hF

theorem does_trying (o : FileOp) {g1 g2 : VProg} (h : Does d path bi ch g1 g2) : Does d path bi ch (trying F o g1) g2 := by
  intro co st
  unfold trying
  simp only [hF]
  exact h co st

theorem does_writing (o : FileOp) (wr : Bytes → DivSt → DivSt) (b : Bytes) {g1 g2 : VProg} (h : Does d path bi ch g1 g2) :
    Does d path bi ch (writingTo F o wr b g1) (.get fun s => .set (wr b s) g2) := by
  intro co st
  unfold writingTo
  simp only [hF]
  exact h co { st with user := wr b st.user }

theorem does_copying (o : FileOp) (wr : Bytes → DivSt → DivSt) {g1 g2 : Nat → VProg} (h : ∀ n, Does d path bi ch (g1 n) (g2 n))
    {f : Except Err Nat → Bytes → VProg} (hf : ∀ r b, f r b = .get fun s => .set (wr b s) (match r with | .error e => .err e | .ok n => g2 n)) :
    Does d path bi ch (copyingTo F o wr g1) (.readData ⟨none, 0⟩ f) := by
  intro co st
  unfold copyingTo
  simp only [hF]
  have hd : ∀ p, readDataP d bi ⟨none, p⟩ = readDataP d bi ⟨none, 0⟩ := fun p => rfl
  show (liftP (readDataP d bi ⟨none, F.stops st.user o⟩) >>= fun x => runProg BoxMap.std d path bi ch
    (.get fun s => .set (wr x.2 s) (match x.1 with | .error e => .err e | .ok n => g1 n)) co) st =
    (liftP (readDataP d bi ⟨none, 0⟩) >>= fun x => runProg BoxMap.std d path bi ch (f x.1 x.2) co) st
  rw [hd]
  refine congrFun (congrArg _ (funext fun x => funext fun s1 => ?_)) st
  obtain ⟨r, b⟩ := x
  simp only [hf]
  cases r with
  | error e => rfl
  | ok n => exact h n co { s1 with user := wr b s1.user }

theorem does_start (b : BoxInfo) {g1 g2 : List Row → VProg} (h : ∀ rows, Does d path bi ch (g1 rows) (g2 rows)) : ∀ (l : List DTrack) (rows : List Row),
    Does d path bi ch (startHeadersF F b l rows g1) (.get fun s => .set (startHeaders b l s).2 (g2 (rows ++ (startHeaders b l s).1)))
  | [], rows => by
    intro co st
    show _ = runProg BoxMap.std d path bi ch (g2 (rows ++ [])) co st
    rw [List.append_nil]
    exact h rows co st
  | t :: l, rows => by
    refine does_trying hF _ ?_
    intro co st
    refine ((does_trying hF _ (does_writing hF _ (initWrite t) _ (does_start b h l _))) co { st with user := initSeek t (st.user.inits t.kind).length st.user }).trans ?_
    show runProg BoxMap.std d path bi ch (g2 ((rows ++ [⟨t, (st.user.inits t.kind).length,
          { boxInfoWritten b (st.user.inits t.kind).length with size := (boxInfoWritten b (st.user.inits t.kind).length).headerSize }⟩]) ++
        (startHeaders b l (initWrite t (boxInfoBytes b) (initSeek t (st.user.inits t.kind).length st.user))).1)) co
        { st with user := (startHeaders b l (initWrite t (boxInfoBytes b) (initSeek t (st.user.inits t.kind).length st.user))).2 } = _
    rw [List.append_assoc]
    rfl

theorem does_finish : ∀ (l : List Row) (ci : Sizes), Does d path bi ch (finishF F l ci) (.get fun s => .set (finishHeaders l s).2 (.ret (some (ci ++ (finishHeaders l s).1))))
  | [], ci => by
    intro co st
    show _ = runProg BoxMap.std d path bi ch (.ret (some (ci ++ []))) co st
    rw [List.append_nil]
    rfl
  | r :: l, ci => by
    refine does_trying hF _ ?_
    intro co st
    refine ((does_trying hF _ (does_writing hF _ (initWrite r.track) _ (does_finish l _))) co { st with user := initSeek r.track r.offset st.user }).trans ?_
    show runProg BoxMap.std d path bi ch (.ret (some ((ci ++ [(r.track.id, (boxInfoWritten r.info r.offset).size)]) ++
        (finishHeaders l (initWrite r.track (boxInfoBytes r.info) (initSeek r.track r.offset st.user))).1))) co
        { st with user := (finishHeaders l (initWrite r.track (boxInfoBytes r.info) (initSeek r.track r.offset st.user))).2 } = _
    rw [List.append_assoc]
    rfl

theorem does_payload : ∀ (l rows : List Row), Does d path bi ch (copyPayloadF F l rows fun rows => finishF F rows []) (copyPayload l rows Tool.finish)
  | [], rows => does_finish hF rows []
  | _ :: l, rows => does_copying hF _ _ (fun n => does_payload l _) fun x b => by cases x <;> rfl

theorem does_initBox (b : BoxInfo) (sel : List DTrack) : Does d path bi ch (initBoxF F b sel) (initBox b sel) := by
  refine does_start hF b (g2 := fun rows => if b.type = tMoov then .expand () (moovDone rows) else copyPayload rows [] Tool.finish) (fun rows => ?_) sel []
  by_cases h : b.type = tMoov
  · simp only [if_pos h]
    have hk : ∀ r co, runProg BoxMap.std d path bi ch (moovDoneF F rows r) co = runProg BoxMap.std d path bi ch (moovDone rows r) co := by
      intro r co
      funext st
      cases r with
      | error e => rfl
      | ok vs =>
        unfold moovDoneF moovDone
        simp only
        cases addSizes vs rows with
        | none => rfl
        | some rows => exact does_finish hF rows [] co st
    intro co st
    simp only [runProg, hk]
  · simp only [if_neg h]
    exact does_payload hF rows []

theorem does_media (t : DTrack) (b : BoxInfo) : Does d path bi ch (copyMediaF F t b) (copyMedia t b) :=
  does_trying hF _ (does_writing hF _ _ _ (does_copying hF _ _ (g2 := fun _ => .ret none) (fun _ _ _ => rfl) fun x b => by cases x <;> rfl))

omit hF in
theorem does_extracting {fuel : Nat} {b : BoxInfo} {q : List BoxType} {g1 g2 : List (BoxInfo × BoxVal) → VProg} (h : ∀ l, Does d path bi ch (g1 l) (g2 l)) :
    Does d path bi ch (extracting d fuel b q g1) (extracting d fuel b q g2) := by
  intro co st
  show runProg BoxMap.std d path bi ch (match (extractBoxWithPayload BoxMap.std d fuel (some b) q st.pos).1 with
    | .ok l => g1 l
    | .err e => .err e
    | .panic => aborts .panic
    | .hang => aborts .hang) co { st with pos := (extractBoxWithPayload BoxMap.std d fuel (some b) q st.pos).2 } =
    runProg BoxMap.std d path bi ch (match (extractBoxWithPayload BoxMap.std d fuel (some b) q st.pos).1 with
    | .ok l => g2 l
    | .err e => .err e
    | .panic => aborts .panic
    | .hang => aborts .hang) co { st with pos := (extractBoxWithPayload BoxMap.std d fuel (some b) q st.pos).2 }
  cases (extractBoxWithPayload BoxMap.std d fuel (some b) q st.pos).1 with
  | ok l => exact h l co _
  | err e => rfl
  | panic => rfl
  | hang => rfl

theorem does_initTrak (ts : List DTrack) (b : BoxInfo) (l : List (BoxInfo × BoxVal)) : Does d path bi ch (initTrakF F ts b l) (initTrak ts b l) := by
  match l with
  | [] => exact fun _ _ => rfl
  | _ :: _ :: _ => exact fun _ _ => rfl
  | [(_, v)] =>
    unfold initTrakF initTrak
    simp only
    cases v.assert "Tkhd" with
    | none => exact fun _ _ => rfl
    | some tkhd => exact does_initBox hF _ _

theorem does_moofRun (t : DTrack) (b : BoxInfo) (tfhd : SV) (l : List (BoxInfo × BoxVal)) : Does d path bi ch (moofRunF F t b tfhd l) (moofRun t b tfhd l) := by
  match l with
  | [] => exact fun _ _ => rfl
  | (_, v) :: _ =>
    unfold moofRunF moofRun
    simp only
    cases v.assert "Trun" with
    | none => exact fun _ _ => rfl
    | some trun => exact does_trying hF _ fun co st => does_media hF t b co { st with user := nextSegment t (fragDuration tfhd trun) st.user }

theorem does_moofHead (ts : List DTrack) (fuel : Nat) (b : BoxInfo) (l : List (BoxInfo × BoxVal)) : Does d path bi ch (moofHeadF F ts d fuel b l) (moofHead ts d fuel b l) := by
  match l with
  | [] => exact fun _ _ => rfl
  | _ :: _ :: _ => exact fun _ _ => rfl
  | [(_, v)] =>
    unfold moofHeadF moofHead
    simp only
    cases v.assert "Tfhd" with
    | none => exact fun _ _ => rfl
    | some tfhd =>
      simp only
      cases trackBy ts (tfhd.uint "TrackID") with
      | none => exact fun _ _ => rfl
      | some t =>
        intro co st
        exact does_extracting (fun l => does_moofRun hF t b tfhd l) co { st with user := { st.user with curr := tfhd.uint "TrackID" } }

theorem does_mdat (ts : List DTrack) (b : BoxInfo) : Does d path bi ch (mdatBoxF F ts b) (mdatBox ts b) := by
  intro co st
  show runProg BoxMap.std d path bi ch (match trackBy ts st.user.curr with
    | none => .ret none
    | some t => if st.user.durs t.id = [] then aborts .panic else .set (noteRate t b st.user) (copyMediaF F t b)) co st =
    runProg BoxMap.std d path bi ch (match trackBy ts st.user.curr with
    | none => .ret none
    | some t => if st.user.durs t.id = [] then aborts .panic else .set (noteRate t b st.user) (copyMedia t b)) co st
  cases trackBy ts st.user.curr with
  | none => rfl
  | some t =>
    simp only
    by_cases hd : st.user.durs t.id = []
    · rw [if_pos hd, if_pos hd]
    · rw [if_neg hd, if_neg hd]
      exact does_media hF t b co { st with user := noteRate t b st.user }

theorem does_tool (ts : List DTrack) (fuel : Nat) (hdl : Handle Unit) : Does d path bi ch (divideToolF F ts d fuel hdl) (divideTool ts d fuel hdl) := by
  unfold divideToolF divideTool
  split
  · split
    · exact does_extracting fun l => does_initTrak hF ts _ l
    · exact does_initBox hF _ ts
  split
  · exact does_extracting fun l => does_moofHead hF ts fuel _ l
  split
  · exact does_mdat hF ts _
  split <;> exact fun _ _ => rfl

end

/-- **C95**, the other direction — If no call fails, this is `divide`: the same outcome (also if it is an error), tracks and files. -/
theorem divide_calm (F : DivFaults) (hF : ∀ s o, F.fails s o = none) (d : Bytes) (fuel : Nat) : divideF F d fuel = divide d fuel := by
  have hr : ∀ ts pos, divideRunF F ts d fuel pos = divideRun ts d fuel pos := by
    intro ts pos
    have e : readBoxStructure BoxMap.std d (divideToolF F ts d fuel) fuel () = readBoxStructure BoxMap.std d (divideTool ts d fuel) fuel () := by
      unfold readBoxStructure
      simp only [readStructure_congr (fun path bi ch hdl => funext fun st => does_tool hF ts fuel hdl 0 st)]
    unfold divideRunF divideRun
    rw [e]
    cases readBoxStructure BoxMap.std d (divideTool ts d fuel) fuel () ⟨pos, .created, []⟩ with
    | mk o st =>
      cases o with
      | err x => simp only; cases st.user.abort with
        | none => rfl
        | some a => cases a <;> rfl
      | _ => rfl
  unfold divideF divide
  simp only [hF, hr, Option.isSome_none, Bool.or_self, List.any_eq_true, Bool.false_eq_true, and_false, exists_false, if_false]
  cases divTracks d fuel 0 with
  | mk o pos => cases o <;> rfl

/-! ## Cases -/

/-- nothing fails -/
def calm : DivFaults := ⟨fun _ _ => none, fun _ _ => 0⟩

/-- the disk is full once the segments of a track have this many bytes: what is left of the room is written -/
def fullDisk (room : Nat) : DivFaults := ⟨fun s o =>
  match o with
  | .segWrite id b => if room < (s.segAt id).2 + b.length then some (room - (s.segAt id).2) else none
  | .segCopy id => some (room - (s.segAt id).2)
  | _ => none, fun _ _ => 0⟩

/-- The movie with two tracks: with room for its segments (of 58, 57 and 57 bytes), and without -/
example : (match divideF calm (twoTracks.ser true {}) 60 with
      | (.ok (), [t, _], s) => (segmentFiles s t).map List.length == [58, 57]
      | _ => false) = true ∧
    (match divideF (fullDisk 58) (twoTracks.ser true {}) 60 with
      | (.ok (), [t, _], s) => (segmentFiles s t).map List.length == [58, 57]
      | _ => false) = true ∧
    (match divideF (fullDisk 57) (twoTracks.ser true {}) 60 with
      | (.err .sink, [t, _], s) => (segmentFiles s t).map List.length == [57]
      | _ => false) = true := by decide +kernel

end Mp4.Props
