import Verif.Lemmas.DivideRun
import Verif.Props.ToolDivide

/-!
# `mp4tool divide` succeeds

C63: on a well-formed file with the boxes it expects.
-/

namespace Mp4.Props

open Mp4.Tool

variable {d : Bytes} {fuel : Nat} {bi : BoxInfo}

/-! ## The tracks -/

theorem lacks_extract {q : List String} (h : Lacks d fuel q bi) (pos : Nat) :
    ∃ p, extractBoxWithPayload BoxMap.std d fuel (some bi) (q.map fourcc) pos = (.ok [], p) := by
  obtain ⟨par, h⟩ := h
  rw [← (extractBoxes_anywhere d fuel bi [q.map fourcc] pos).1] at h
  unfold extractBoxWithPayload extractBoxesWithPayload
  cases hr : extractBoxes BoxMap.std d fuel (some bi) [q.map fourcc] pos with
  | mk o p =>
    rw [hr] at h
    simp only at h
    subst h
    rw [M.bind_ok hr]
    exact ⟨p, rfl⟩

theorem entryPath_eq (s : String) : entryPath (fourcc s) = (entryNames s).map fourcc := by
  unfold entryPath entryNames
  simp only [List.map_cons, List.map_nil, List.cons.injEq, and_true]
  decide

theorem video_none {s : String} (h : Lacks d fuel (entryNames s) bi) (tr : DTrack) (pos : Nat) :
    ∃ p, videoEntry d fuel bi (fourcc s) tr pos = (.ok none, p) := by
  obtain ⟨p, h⟩ := lacks_extract h pos
  unfold videoEntry
  rw [entryPath_eq, M.bind_ok h]
  exact ⟨p, rfl⟩

theorem audio_none {s : String} (h : Lacks d fuel (entryNames s) bi) (tr : DTrack) (pos : Nat) :
    ∃ p, audioEntry d fuel bi (fourcc s) tr pos = (.ok none, p) := by
  obtain ⟨par, h⟩ := h
  rw [← (extractBoxes_anywhere d fuel bi [(entryNames s).map fourcc] pos).1] at h
  unfold audioEntry
  rw [entryPath_eq]
  cases hr : extractBoxes BoxMap.std d fuel (some bi) [(entryNames s).map fourcc] pos with
  | mk o p =>
    rw [hr] at h
    simp only at h
    subst h
    rw [M.bind_ok hr]
    exact ⟨p, rfl⟩

theorem audio_some {s : String} (h : Has d fuel (entryNames s) bi) (tr : DTrack) (pos : Nat) :
    ∃ p, audioEntry d fuel bi (fourcc s) tr pos = (.ok (some tr), p) := by
  obtain ⟨b, l, par, h⟩ := h
  rw [← (extractBoxes_anywhere d fuel bi [(entryNames s).map fourcc] pos).1] at h
  unfold audioEntry
  rw [entryPath_eq]
  cases hr : extractBoxes BoxMap.std d fuel (some bi) [(entryNames s).map fourcc] pos with
  | mk o p =>
    rw [hr] at h
    simp only at h
    subst h
    rw [M.bind_ok hr]
    exact ⟨p, rfl⟩

/-- extraction elsewhere -/
theorem extract_at {q : List BoxType} {l : List (BoxInfo × BoxVal)} (h : (extractBoxWithPayload BoxMap.std d fuel (some bi) q 0).1 = .ok l) (pos : Nat) :
    ∃ p, extractBoxWithPayload BoxMap.std d fuel (some bi) q pos = (.ok l, p) := by
  rw [← extract_anywhere d fuel bi q pos] at h
  exact ⟨_, Prod.ext h rfl⟩

theorem video_some (hd : d.length ≤ 2 ^ 48) (hb : HeaderAt d bi) {s : String} (hp : ∀ x ∈ (entryNames s).map fourcc, x ≠ ⟨0, 0, 0, 0⟩)
    (hs : (BoxMap.std (fourcc s)).map (fun bd => (bd.goName, bd.target.isNone)) = [("VisualSampleEntry", true)]) {e : SV} {l : List SV}
    (h : below d fuel (entryNames s) bi = e :: l) (tr : DTrack) (pos : Nat) :
    ∃ p, videoEntry d fuel bi (fourcc s) tr pos = (.ok (some { tr with width := e.uint "Width", height := e.uint "Height" }), p) := by
  obtain ⟨xs, h1, h2, h3⟩ := below_asserts hd hb rfl (asked_last hp (t := fourcc s) rfl) hs h
  obtain ⟨p, h4⟩ := extract_at h1 pos
  unfold videoEntry
  rw [entryPath_eq, M.bind_ok h4]
  match xs, h2, h3 with
  | (b, v) :: xs, h2, h3 =>
    have := h3 (b, v) (by simp)
    simp only at this
    simp only [List.map_cons, List.cons.injEq] at h2
    simp only [this, h2.1]
    exact ⟨p, rfl⟩

theorem kindOf_run (hd : d.length ≤ 2 ^ 48) (hb : HeaderAt d bi) {k : Option (Kind × Nat × Nat)} (h : KindIn d fuel bi k) (id ts pos : Nat) :
    ∃ p, kindOf d fuel bi id ts pos = (.ok (k.map fun x => ⟨id, x.1, ts, x.2.1, x.2.2⟩), p) := by
  unfold kindOf
  rw [show tAvc1 = fourcc "avc1" by decide, show tMp4a = fourcc "mp4a" by decide, show tEncv = fourcc "encv" by decide, show tEnca = fourcc "enca" by decide]
  have vis : ∀ s ∈ ["avc1", "encv"], (∀ x ∈ (entryNames s).map fourcc, x ≠ ⟨0, 0, 0, 0⟩) ∧
    (BoxMap.std (fourcc s)).map (fun bd => (bd.goName, bd.target.isNone)) = [("VisualSampleEntry", true)] := by decide +kernel
  cases h with
  | avc1 he =>
    obtain ⟨p, h⟩ := video_some hd hb (vis "avc1" (by decide)).1 (vis "avc1" (by decide)).2 he ⟨id, .video, ts, 0, 0⟩ pos
    rw [M.bind_ok h]
    exact ⟨p, rfl⟩
  | mp4a l1 he =>
    obtain ⟨p1, h1⟩ := video_none l1 ⟨id, .video, ts, 0, 0⟩ pos
    obtain ⟨p2, h2⟩ := audio_some he ⟨id, .audio, ts, 0, 0⟩ p1
    rw [M.bind_ok h1]
    simp only
    rw [M.bind_ok h2]
    exact ⟨p2, rfl⟩
  | encv l1 l2 he =>
    obtain ⟨p1, h1⟩ := video_none l1 ⟨id, .video, ts, 0, 0⟩ pos
    obtain ⟨p2, h2⟩ := audio_none l2 ⟨id, .audio, ts, 0, 0⟩ p1
    obtain ⟨p3, h3⟩ := video_some hd hb (vis "encv" (by decide)).1 (vis "encv" (by decide)).2 he ⟨id, .encVideo, ts, 0, 0⟩ p2
    rw [M.bind_ok h1]
    simp only
    rw [M.bind_ok h2]
    simp only
    rw [M.bind_ok h3]
    exact ⟨p3, rfl⟩
  | enca l1 l2 l3 he =>
    obtain ⟨p1, h1⟩ := video_none l1 ⟨id, .video, ts, 0, 0⟩ pos
    obtain ⟨p2, h2⟩ := audio_none l2 ⟨id, .audio, ts, 0, 0⟩ p1
    obtain ⟨p3, h3⟩ := video_none l3 ⟨id, .encVideo, ts, 0, 0⟩ p2
    obtain ⟨p4, h4⟩ := audio_some he ⟨id, .encAudio, ts, 0, 0⟩ p3
    rw [M.bind_ok h1]
    simp only
    rw [M.bind_ok h2]
    simp only
    rw [M.bind_ok h3]
    exact ⟨p4, h4⟩
  | other l1 l2 l3 l4 =>
    obtain ⟨p1, h1⟩ := video_none l1 ⟨id, .video, ts, 0, 0⟩ pos
    obtain ⟨p2, h2⟩ := audio_none l2 ⟨id, .audio, ts, 0, 0⟩ p1
    obtain ⟨p3, h3⟩ := video_none l3 ⟨id, .encVideo, ts, 0, 0⟩ p2
    obtain ⟨p4, h4⟩ := audio_none l4 ⟨id, .encAudio, ts, 0, 0⟩ p3
    rw [M.bind_ok h1]
    simp only
    rw [M.bind_ok h2]
    simp only
    rw [M.bind_ok h3]
    exact ⟨p4, h4⟩

theorem divTrack_run (hd : d.length ≤ 2 ^ 48) (hb : HeaderAt d bi) {o : Option DTrack} (h : IsTrack d fuel bi o) (pos : Nat) :
    ∃ p, divTrack d fuel bi pos = (.ok o, p) := by
  obtain ⟨tkhd, mdhd, k, h1, h2, hk, rfl⟩ := h
  obtain ⟨l1, a1, a2, a3⟩ := below_tkhd hd hb h1
  obtain ⟨y1, rfl, rfl⟩ := map_one a2
  obtain ⟨l2, b1, b2, b3⟩ := below_asserts hd hb (q' := [tMdia, tMdhd]) (by decide) (asked_last (by decide) (t := tMdhd) rfl) (asserted (tMdhd, "Mdhd") (by decide)) h2
  obtain ⟨y2, rfl, rfl⟩ := map_one b2
  obtain ⟨p1, e1⟩ := extract_at a1 pos
  obtain ⟨p2, e2⟩ := extract_at b1 p1
  obtain ⟨p3, e3⟩ := kindOf_run hd hb hk (y1.2.sv.uint "TrackID") (y2.2.sv.uint "Timescale") p2
  unfold divTrack
  rw [M.bind_ok e1]
  simp only [a3 y1 (by simp)]
  rw [M.bind_ok e2]
  simp only [b3 y2 (by simp)]
  exact ⟨p3, e3⟩

theorem divLoop_run (hd : d.length ≤ 2 ^ 48) : ∀ (bis : List BoxInfo) (ts : List DTrack) (pos : Nat), (∀ b ∈ bis, HeaderAt d b ∧ ∃ o, IsTrack d fuel b o) →
    ∃ ts' p, divLoop d fuel bis ts pos = (.ok ts', p)
  | [], ts, pos, _ => ⟨ts, pos, rfl⟩
  | b :: bis, ts, pos, h => by
    obtain ⟨⟨hb, o, ho⟩, h⟩ := List.forall_mem_cons.1 h
    obtain ⟨p, e⟩ := divTrack_run hd hb ho pos
    rw [divLoop, M.bind_ok e]
    cases o with
    | none => exact divLoop_run hd bis _ p h
    | some t => exact divLoop_run hd bis _ p h

/-! ## The whole -/

/-- The `trak` boxes in the `moov` boxes of the root. -/
def traks (F : Forest) : List BoxInfo := askedBoxes [[fourcc "moov", fourcc "trak"]] F

theorem boxes_header (hd : d.length ≤ maxAlloc) : ∀ (F : Forest) {isRoot : Bool} {parent : Option BoxInfo} {path : List BoxType} {ctx : Ctx} {pos total : Nat},
    F.WF d isRoot path ctx pos total → ∀ x ∈ F.boxes parent path, HeaderAt d x.2.2
  | .nil, _, _, _, _, _, _, _, x, hx => by cases hx
  | .leaf bi rest, _, _, _, _, _, _, ⟨hp, h⟩, x, hx => by
    rcases List.mem_cons.1 hx with rfl | hx
    · exact (placed_header hd hp).2
    · exact boxes_header hd rest h x hx
  | .node bi n kids rest, _, _, _, _, _, _, ⟨hp, _, hk, h⟩, x, hx => by
    rcases List.mem_cons.1 hx with rfl | hx
    · exact (placed_header hd hp).2
    · rcases List.mem_append.1 hx with hx | hx
      · exact boxes_header hd kids hk x hx
      · exact boxes_header hd rest h x hx

theorem leaves_not_moov : ∀ (F : Forest) (path : List BoxType), MoovOnly F → ∀ x ∈ leaves path F, x.1.getLast? ≠ some (fourcc "moov")
  | .nil, _, _, x, hx => by cases hx
  | .leaf bi rest, path, h, x, hx => by
    rcases List.mem_cons.1 hx with rfl | hx
    · simpa using h.1
    · exact leaves_not_moov rest path h.2 x hx
  | .node bi n kids rest, path, h, x, hx => by
    rcases List.mem_append.1 hx with hx | hx
    · exact leaves_not_moov kids _ h.2.1 x hx
    · exact leaves_not_moov rest path h.2.2 x hx

theorem leaves_ne' : ∀ (F : Forest) (path : List BoxType), ∀ x ∈ leaves path F, x.1 ≠ []
  | .nil, _, x, hx => by cases hx
  | .leaf bi rest, path, x, hx => by
    rcases List.mem_cons.1 hx with rfl | hx
    · simp
    · exact leaves_ne' rest path x hx
  | .node bi n kids rest, path, x, hx => by
    rcases List.mem_append.1 hx with hx | hx
    · exact leaves_ne' kids _ x hx
    · exact leaves_ne' rest path x hx

theorem traks_found (hd : d.length ≤ 2 ^ 48) {F : Forest} (hF : F.WF d true [] {} 0 0) (hm : MoovOnly F) (hf : F.count < fuel) (pos : Nat) :
    (extractBoxes BoxMap.std d fuel none [[fourcc "moov", fourcc "trak"]] pos).1 = .ok (traks F, none) := by
  refine extract_exact_partial hd F hF _ (by simp) (fun x hx ha => ?_) fuel hf pos
  obtain ⟨-, a, b, hq, hb, hp⟩ := ha
  rw [List.mem_singleton] at hq
  have hz : ∀ t ∈ [fourcc "moov", fourcc "trak"], t ≠ ⟨0, 0, 0, 0⟩ := by decide
  have := (hasPattern_exact (fun t ht => hz t (by rw [← hq]; exact List.mem_append_left _ ht))).1 hp
  subst this
  have hne := leaves_ne' F [] x hx
  have hl := leaves_not_moov F [] hm x hx
  match hx1 : x.1, hq, hne, hl with
  | [u], hq, _, hl =>
    simp only [List.cons_append, List.cons.injEq] at hq
    exact hl (by rw [hq.1]; rfl)
  | u :: v :: w, hq, _, _ =>
    simp only [List.cons_append, List.cons.injEq, List.append_eq_nil_iff] at hq
    exact hb hq.2.2.2

/-- **C63 (success).**  On a well-formed file in which just the `moov` boxes contain others, with no other boxes than the tool expects, where
every `trak` has one `tkhd` and one `mdhd` and every fragment of a track has a `trun`, `divide` succeeds; and if the tracks are of different kinds, it
has written all that is to be written.  (An ID of 2^32 - 1 is not allowed, since the tool begins with it.) -/
theorem divide_succeeds (hd : d.length ≤ 2 ^ 48) {F : Forest} (hF : F.WF d true [] {} 0 0) (hm : MoovOnly F) (he : Expected d fuel F) (hf : F.count < fuel)
    (ht : ∀ b ∈ traks F, ∃ o, IsTrack d fuel b o)
    (hr : ∀ b ∈ traks F, ∀ t, IsTrack d fuel b (some t) → t.id ≠ 2 ^ 32 - 1 ∧ HasRuns d fuel t.id F) :
    ∃ ts s, divide d fuel = (.ok (), ts, s) ∧ ((ts.Pairwise fun a b => a.kind ≠ b.kind) → ∀ t ∈ ts,
      s.inits t.kind = initSegment d fuel t F ∧
      s.durs t.id = (segments d fuel t (row F)).map (·.1) ∧
      s.rates t.id = mdatRates d fuel t (row F) ∧
      ∀ k, s.segs t.kind k = (((segments d fuel t (row F))[k]?).map (·.2)).getD []) := by
  have hd' : d.length ≤ maxAlloc := hd
  have hx := traks_found hd hF hm hf 0
  have htr : ∃ ts p, divTracks d fuel 0 = (.ok ts, p) := by
    unfold divTracks
    rw [show tMoov = fourcc "moov" by decide, show tTrak = fourcc "trak" by decide]
    cases hr : extractBoxes BoxMap.std d fuel none [[fourcc "moov", fourcc "trak"]] 0 with
    | mk o p =>
      rw [hr] at hx
      simp only at hx
      subst hx
      rw [M.bind_ok hr]
      refine divLoop_run hd (traks F) [] p fun b hb => ⟨?_, ht b hb⟩
      unfold traks askedBoxes at hb
      obtain ⟨x, hx, rfl⟩ := List.mem_map.1 hb
      exact boxes_header hd' F hF x (List.mem_filter.1 hx).1
  obtain ⟨ts, p, htr⟩ := htr
  obtain ⟨l, ⟨par, hl⟩, h1, hids, h2⟩ := divTracks_found htr
  rw [hx] at hl
  have hl : traks F = l.map (·.1) := (Prod.mk.inj (Out.ok.inj hl)).1
  have hmem : ∀ t ∈ ts, t.id ≠ 2 ^ 32 - 1 ∧ HasRuns d fuel t.id F := by
    intro t htt
    obtain ⟨a, b, e, -⟩ := (h2 t).1 htt
    have : t ∈ l.filterMap (·.2) := by rw [e]; simp
    obtain ⟨x, hx, hxt⟩ := List.mem_filterMap.1 this
    have := h1 x hx
    rw [hxt] at this
    exact hr x.1 (by rw [hl]; exact List.mem_map.2 ⟨x, hx, rfl⟩) t this
  have hrun : ∃ s, divideRun ts d fuel p = (.ok (), s) := by
    have h0 : liftP (S := DivSt) (V := Option Sizes) (seekStartP 0) ⟨p, .created, []⟩ = (.ok 0, ⟨0, .created, []⟩) := rfl
    have hrd : Ready ts DivSt.created := by
      intro t e
      obtain ⟨h1, h2⟩ := trackBy_some e
      exact absurd h2 (hmem t h1).1
    obtain ⟨vs, st, h3, -⟩ := ok_row (ts := ts) hd F fuel none 0 true [] {} ⟨0, .created, []⟩ hF hm he (fun t h => (hmem t h).2) hrd hf (by decide)
    refine ⟨st.user, ?_⟩
    unfold divideRun readBoxStructure
    rw [M.bind_ok h0, h3]
  obtain ⟨s, hrun⟩ := hrun
  have hdiv : divide d fuel = (.ok (), ts, s) := by
    unfold divide
    rw [htr]
    simp only [hrun]
  refine ⟨ts, s, hdiv, fun hk => ?_⟩
  obtain ⟨g1, g2⟩ := wf_laid hd' F hF hm
  exact (divide_writes hd' hdiv hk).2 F g1 g2

/-! ## A file to try it on -/

theorem pair_eq {α β : Type} {x : α × β} {a : α} (h : x.1 = a) : x = (a, x.2) := by rw [← h]

theorem divForest_wf : divForest.WF divFile true [] {} 0 0 := by
  have L : ∀ {bi : BoxInfo} {isRoot path pos total}, bi.offset = pos → isoHeader (divFile.drop pos) = .box bi.size bi.headerSize bi.type bi.extendToEOF →
      bi.headerSize ≤ bi.size → pos + bi.size ≤ divFile.length → (isRoot = true ∨ bi.size ≤ total) → bi.ctx = {} → bi.type ≠ tFtyp → bi.type ≠ tKeys →
      Forest.Placed divFile isRoot path {} pos total bi :=
    fun h1 h2 h3 h4 h5 h6 h7 h8 => ⟨h1, h2, h3, h4, h5, ownCtx_plain h6 h7 h8⟩
  refine ⟨⟨rfl, by decide +kernel, by decide, by decide +kernel, .inl rfl, ownCtx_ftyp rfl (by decide) (by decide +kernel)⟩,
    L rfl (by decide +kernel) (by decide) (by decide +kernel) (.inl rfl) rfl (by decide) (by decide), ?_,
    ⟨L rfl (by decide +kernel) (by decide) (by decide +kernel) (.inr (by decide)) rfl (by decide) (by decide),
     L rfl (by decide +kernel) (by decide) (by decide +kernel) (.inr (by decide)) rfl (by decide) (by decide),
     L rfl (by decide +kernel) (by decide) (by decide +kernel) (.inr (by decide)) rfl (by decide) (by decide),
     L rfl (by decide +kernel) (by decide) (by decide +kernel) (.inr (by decide)) rfl (by decide) (by decide), .inl rfl⟩,
    L rfl (by decide +kernel) (by decide) (by decide +kernel) (.inl rfl) rfl (by decide) (by decide),
    L rfl (by decide +kernel) (by decide) (by decide +kernel) (.inl rfl) rfl (by decide) (by decide),
    L rfl (by decide +kernel) (by decide) (by decide +kernel) (.inl rfl) rfl (by decide) (by decide),
    L rfl (by decide +kernel) (by decide) (by decide +kernel) (.inl rfl) rfl (by decide) (by decide),
    L rfl (by decide +kernel) (by decide) (by decide +kernel) (.inl rfl) rfl (by decide) (by decide),
    L rfl (by decide +kernel) (by decide) (by decide +kernel) (.inl rfl) rfl (by decide) (by decide),
    L rfl (by decide +kernel) (by decide) (by decide +kernel) (.inl rfl) rfl (by decide) (by decide),
    show 837 = divFile.length by decide +kernel⟩
  exact payloadN_of (by decide +kernel)

/-- the hypotheses are met -/
example : ∃ ts s, divide divFile 20 = (.ok (), ts, s) := by
  have ht : ∀ b ∈ traks divForest, ∃ o, IsTrack divFile 20 b o := by
    obtain ⟨l, ⟨par, h1⟩, h2, -⟩ := divTracks_found (d := divFile) (fuel := 20) (pos := 0) (ts := divFileTracks)
      (pair_eq (by decide +kernel))
    rw [traks_found (by decide +kernel) divForest_wf (by decide +kernel) (by decide)] at h1
    have h1 := (Prod.mk.inj (Out.ok.inj h1)).1
    intro b hb
    rw [h1] at hb
    obtain ⟨x, hx, rfl⟩ := List.mem_map.1 hb
    exact ⟨_, h2 x hx⟩
  have hr : ∀ b ∈ traks divForest, ∀ t, IsTrack divFile 20 b (some t) → t.id ≠ 2 ^ 32 - 1 ∧ HasRuns divFile 20 t.id divForest := by
    rintro b hb t ⟨tkhd, mdhd, k, h1, h2, h3, h4⟩
    refine ⟨?_, fun b hb hn _ h => ?_⟩
    · have : ∀ b ∈ traks divForest, ((below divFile 20 ["tkhd"] b).map (·.uint "TrackID")) ≠ [2 ^ 32 - 1] := by decide +kernel
      have := this b hb
      rw [h1] at this
      cases k with
      | none => cases h4
      | some x =>
        cases h4
        exact fun e => this (congrArg (fun n => [n]) e)
    · have : ∀ b ∈ row divForest, Named ["moof"] b → (below divFile 20 ["traf", "trun"] b).length ≠ 0 := by decide +kernel
      exact this b hb hn (by rw [h]; rfl)
  obtain ⟨ts, s, h, -⟩ := divide_succeeds (by decide +kernel) divForest_wf (by decide +kernel) (by decide +kernel) (by decide) ht hr
  exact ⟨ts, s, h⟩

/-- `divFile` up to the first fragment, where the first track has the ID 2^32 - 1, and an `mdat` -/
def maxIdFile : Bytes := divFile.take 160 ++ [255, 255, 255, 255] ++ (divFile.drop 164).take 474 ++ [0, 0, 0, 9, 109, 100, 97, 116, 1]

/-- **C63**, finding — if a track has the ID 2^32 - 1, an `mdat` before the first fragment is a panic. -/
theorem divide_max_id : ((divTracks maxIdFile 20 0).1 = .ok [⟨2 ^ 32 - 1, .video, 600, 640, 360⟩, ⟨2, .audio, 1000, 0, 0⟩]) ∧
    (divide maxIdFile 20).1 = .panic := by decide +kernel

end Mp4.Props
