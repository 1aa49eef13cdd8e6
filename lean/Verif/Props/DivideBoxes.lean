import Verif.Lemmas.DivideProbe
import Verif.Props.Summary

/-!
# C82: what `mp4tool divide` writes, read back
-/

namespace Mp4.Props

open Mp4.Tool Mp4.DivideBoxes

/-! ## There is a `moov` -/

theorem kids_paths : ∀ (F : Forest) (parent : Option BoxInfo) (path : List BoxType), ∀ x ∈ F.boxes parent path, path <+: x.2.1
  | .nil, _, _ => by simp [Forest.boxes]
  | .leaf bi rest, parent, path => by
    intro x hx
    simp only [Forest.boxes, List.mem_cons] at hx
    rcases hx with rfl | hx
    · exact List.prefix_append _ _
    · exact kids_paths rest parent path x hx
  | .node bi n kids rest, parent, path => by
    intro x hx
    simp only [Forest.boxes, List.mem_cons, List.mem_append] at hx
    rcases hx with rfl | hx | hx
    · exact List.prefix_append _ _
    · exact (List.prefix_append _ _).trans (kids_paths kids _ _ x hx)
    · exact kids_paths rest parent path x hx

theorem moov_path : ∀ (B : Boxes) (ctx : Ctx) (pos : Nat), B.Unknown true ctx → ∀ x ∈ (B.forest true ctx pos).boxes none [],
    x.2.1.head? = some (fourcc "moov") → hasMoov B = true
  | .nil, _, _, _ => by simp [Boxes.forest, Forest.boxes]
  | .raw start p rest, ctx, pos, hu => by
    intro x hx hh
    simp only [Boxes.forest, Forest.boxes, List.mem_cons] at hx
    rcases hx with rfl | hx
    · simp only [List.nil_append, List.head?_cons, Option.some.injEq] at hh
      have := hu.1
      rw [show start.type = fourcc "moov" from hh, moov_known] at this
      cases this
    · exact moov_path rest ctx _ hu.2 x hx hh
  | .box start bd sv kids rest, ctx, pos, hu => by
    intro x hx hh
    simp only [hasMoov, Bool.or_eq_true, decide_eq_true_eq]
    simp only [Boxes.forest, Forest.boxes, List.mem_cons, List.mem_append] at hx
    rcases hx with rfl | hx | hx
    · simp only [List.nil_append, List.head?_cons, Option.some.injEq] at hh
      exact .inl hh
    · obtain ⟨r, e⟩ := kids_paths _ _ _ x hx
      rw [← e] at hh
      simp only [List.nil_append, List.cons_append, List.head?_cons, Option.some.injEq] at hh
      exact .inl hh
    · exact .inr (moov_path rest _ _ hu.2 x hx hh)

theorem track_moov {B : Boxes} (hok : B.Ok true true {}) (hraw : B.Unknown true {}) (hlen : (B.ser true {}).length ≤ 2 ^ 48) {fuel : Nat}
    (hf : (B.forest true {} 0).count < fuel) {ts : List DTrack} {p : Nat} (h : divTracks (B.ser true {}) fuel 0 = (.ok ts, p)) {t : DTrack} (ht : t ∈ ts) :
    hasMoov B = true := by
  obtain ⟨hwf, -⟩ := wf_reads B hok hlen
  obtain ⟨l, ⟨par, e1⟩, -, -, e3⟩ := divTracks_found h
  have hp : PlainPaths [[fourcc "moov", fourcc "trak"]] := PlainPaths.mono plain_probe (by decide +kernel)
  rw [extract_exact_partial hlen _ hwf _ hp.ne (hp.leaves hraw) fuel hf 0] at e1
  simp only [Out.ok.injEq, Prod.mk.injEq] at e1
  obtain ⟨a, b, e4, -⟩ := (e3 t).1 ht
  cases l with
  | nil => simp at e4
  | cons y l =>
    have hy : y.1 ∈ askedBoxes [[fourcc "moov", fourcc "trak"]] (B.forest true {} 0) := by rw [e1.1]; simp
    unfold askedBoxes at hy
    obtain ⟨x, hx, -⟩ := List.mem_map.1 hy
    rw [List.mem_filter, decide_eq_true_eq, hp.asked, List.mem_singleton] at hx
    exact moov_path B {} 0 hraw x hx.1 (by rw [hx.2]; rfl)

/-! ## What the outputs are -/

/-- Everything about an output that is needed below. -/
theorem divide_exp {B : Boxes} (hok : B.Ok true true {}) (hraw : B.Unknown true {}) (hlen : (B.ser true {}).length ≤ 2 ^ 48) {fuel : Nat}
    (hf : (B.forest true {} 0).count < fuel) {ts : List DTrack} {s : DivSt} (h : divide (B.ser true {}) fuel = (.ok (), ts, s))
    (hk : ts.Pairwise fun a b => a.kind ≠ b.kind) :
    Exp B ∧ Linked (B.ser true {}) fuel B true {} 0 ∧ ∀ t ∈ ts, hasMoov B = true ∧
      s.inits t.kind = initSegment (B.ser true {}) fuel t (laid B true {} 0) ∧
      (s.durs t.id).length = (segments (B.ser true {}) fuel t (row (laid B true {} 0))).length ∧
      ∀ k, s.segs t.kind k = (((segments (B.ser true {}) fuel t (row (laid B true {} 0)))[k]?).map (·.2)).getD [] := by
  obtain ⟨hwf, hr⟩ := wf_reads B hok hlen
  have hl := laid_laid hlen B true true [] {} 0 0 hwf hok hraw
  have hlk := linked (fuel := fuel) hlen B true true [] {} 0 0 hwf hok hraw hr rfl hf
  obtain ⟨⟨F, f1, f2⟩, hw⟩ := divide_writes (show (B.ser true {}).length ≤ maxAlloc from hlen) h hk
  rw [← laid_unique hl.1 f1] at f2
  have hrow : ∀ (F : Forest) (isRoot : Bool) (path : List BoxType) (ctx : Ctx) (pos total : Nat), Laid (B.ser true {}) F isRoot path ctx pos total →
      Expected (B.ser true {}) fuel F → ∀ b ∈ row F, b.type ∈ rootNames.map fourcc ∨ b.type = fourcc "moov" := by
    intro F
    induction F with
    | nil => intro _ _ _ _ _ _ _ b hb; simp [row] at hb
    | leaf bi rest ih =>
      intro isRoot path ctx pos total hF hE b hb
      rcases List.mem_cons.1 hb with rfl | hb
      · exact .inl (named_root hE.1)
      · exact ih _ _ _ _ _ hF.2.2 hE.2.2.2 b hb
    | node bi n kids rest _ ih =>
      intro isRoot path ctx pos total hF hE b hb
      rcases List.mem_cons.1 hb with rfl | hb
      · exact .inr hF.2.1
      · exact ih _ _ _ _ _ hF.2.2.2.2 hE.2.2 b hb
  refine ⟨exp_of B true {} 0 hraw hlk f2 (hrow _ _ _ _ _ _ hl.1 f2), hlk, fun t ht => ?_⟩
  obtain ⟨w1, w2, -, w4⟩ := hw _ hl.1 hl.2 t ht
  refine ⟨?_, w1, by rw [w2, List.length_map], w4⟩
  unfold divide at h
  generalize hr : divTracks (B.ser true {}) fuel 0 = x at h
  match x, hr, h with
  | (.err e, p), hr, h => cases h
  | (.panic, p), hr, h => cases h
  | (.hang, p), hr, h => cases h
  | (.ok us, p), hr, h =>
    simp only [Prod.mk.injEq] at h
    rw [← h.2.1] at ht
    exact track_moov hok hraw hlen hf hr ht

/-- The segments that were written for a track: as many as durations were noted. -/
def segmentFiles (s : DivSt) (t : DTrack) : List Bytes := (List.range (s.durs t.id).length).map (s.segs t.kind)

theorem files_eq {α : Type} (l : List (α × Bytes)) {g : Nat → Bytes} {n : Nat} (hn : n = l.length) (h : ∀ k, g k = ((l[k]?).map (·.2)).getD []) :
    (List.range n).map g = l.map (·.2) := by
  refine List.ext_getElem (by simp [hn]) fun i h1 h2 => ?_
  rw [List.length_map] at h2
  simp [h i, h2]

/-- **C82**, boxes — When `divide` has succeeded on a file written as a row of boxes (not a QuickTime file), whose tracks are of different kinds: `init.mp4` of a track has exactly
the boxes of initialization segments of the file, in order, where `moov` has lost the other tracks and nothing else has changed; and its segments have
exactly its `moof` boxes, in order, each followed by the `mdat` boxes up to the next `moof`, unchanged.  Both are files that can be
written and read as such. -/
theorem divide_boxes (B : Boxes) (hok : B.Ok true false {}) (hn : B.Neutral) (hraw : B.Unknown true {}) (hlen : (B.ser true {}).length ≤ 2 ^ 48) (fuel : Nat)
    (hf : (B.forest true {} 0).count < fuel) (ts : List DTrack) (s : DivSt) (h : divide (B.ser true {}) fuel = (.ok (), ts, s))
    (hk : ts.Pairwise fun a b => a.kind ≠ b.kind) (t : DTrack) (ht : t ∈ ts) :
    s.inits t.kind = (B.initOf t.id).ser true {} ∧ (B.initOf t.id).Ok true false {} ∧ (B.initOf t.id).Unknown true {} ∧
    segmentFiles s t = (B.segmentsOf t.id).map (·.ser true {}) ∧
    ∀ S ∈ B.segmentsOf t.id, S.Ok true false {} ∧ S.Unknown true {} := by
  have hok' := Boxes.ok_mono B true true {} hok
  obtain ⟨he, hl, hw⟩ := divide_exp hok' hraw hlen hf h hk
  obtain ⟨-, w1, w2, w3⟩ := hw t ht
  have hd : (B.ser true {}).drop 0 = B.ser true {} ++ [] := by simp
  refine ⟨?_, (init_ok B true false false {} (fun e => e) he hok).1, init_unknown B true {} he hraw, ?_, fun S hS => ?_⟩
  · rw [w1, initSegment_ser B true false {} 0 [] hok he hl hd]
  · unfold segmentFiles
    rw [files_eq _ w2 w3, segments_ser B {} 0 [] he hn hl hd]
  · obtain ⟨a, b, -⟩ := segments_facts B he hn hok hraw S hS
    exact ⟨a, b⟩

/-- **C82**, summary — If moreover `Probe` can summarize the file: `Probe` of `init.mp4` gives the same brands, time scale and duration, fast start,
of the tracks exactly those with the ID of the track, as they are, and no segments; and `Probe` of `init.mp4` followed by the segments gives in
addition exactly the segments of the file that have this track ID, in order and as they are, except that each begins where its file begins. -/
theorem divide_probe (B : Boxes) (hok : B.Ok true false {}) (hn : B.Neutral) (hraw : B.Unknown true {}) (hlen : (B.ser true {}).length ≤ 2 ^ 48) (fuel : Nat)
    (hf : (B.forest true {} 0).count < fuel) (ts : List DTrack) (s : DivSt) (h : divide (B.ser true {}) fuel = (.ok (), ts, s))
    (hk : ts.Pairwise fun a b => a.kind ≠ b.kind) (t : DTrack) (ht : t ∈ ts) (pos : Nat) (i : ProbeInfo)
    (hi : (probe BoxMap.std (B.ser true {}) fuel pos).1 = .ok i) (pos' : Nat) :
    (probe BoxMap.std (s.inits t.kind) fuel pos').1 =
      .ok { i with tracks := i.tracks.filter fun x => x.trackID == t.id, segments := [], fastStart := true } ∧
    ∃ L, (probe BoxMap.std (s.inits t.kind ++ (segmentFiles s t).flatten) fuel pos').1 =
        .ok { i with tracks := i.tracks.filter fun x => x.trackID == t.id, segments := L, fastStart := true } ∧
      L.map offsetless = (i.segments.filter fun x => x.trackID == t.id).map offsetless ∧
      L.map (·.moofOffset) = startsFrom (s.inits t.kind).length (segmentFiles s t) := by
  have hok' := Boxes.ok_mono B true true {} hok
  obtain ⟨he, hl, hw⟩ := divide_exp hok' hraw hlen hf h hk
  have hm := (hw t ht).1
  obtain ⟨w1, w2, w3, w4, w5⟩ := divide_boxes B hok hn hraw hlen fuel hf ts s h hk t ht
  rw [w1, w4]
  rw [count_eq] at hf
  have hnum := num_all (id := t.id) B
  have hall := len_all (id := t.id) B he hn hok
  rw [probe_ser B hok' hraw hlen fuel (by rw [count_eq]; exact hf) pos] at hi
  unfold Boxes.summary at hi
  obtain ⟨s', e1, e2⟩ := andThen_inv hi
  have e2 : s'.2 = i := by cases e2; rfl
  have hs := summary_init (id := t.id) B {} {} 0 0 (false, {}) s' false he e1
  rw [hm, Bool.false_or, e2] at hs
  have hs : (B.initOf t.id).summaryFrom {} 0 (false, {}) = .ok (false, keep t.id true i) := hs
  have hin : (B.initOf t.id).endCtx true {} = {} := Boxes.endCtx_neutral _ _ _ (init_neutral B hn)
  have hsf := segments_facts (id := t.id) B he hn hok hraw
  obtain ⟨j1, j2, j3, j4⟩ := join_facts _ hsf
  obtain ⟨L, r1, r2⟩ := summary_segments (id := t.id) B 0 (false, {}) s' he hn hok hraw e1
  rw [e2] at r1
  have r1 : i.segments = L := r1.trans (List.nil_append L)
  refine ⟨?_, ?_⟩
  · rw [probe_ser _ (Boxes.ok_mono _ _ _ _ w2) w3 (by omega) fuel (by rw [count_eq]; omega) pos']
    unfold Boxes.summary
    rw [hs]
    rfl
  · obtain ⟨L', q1, q2, q3⟩ := r2 ((B.initOf t.id).ser true {}).length
    refine ⟨L', ?_, by rw [q2, r1], q3⟩
    have hser : ((B.initOf t.id).append (joinAll (B.segmentsOf t.id))).ser true {} =
        (B.initOf t.id).ser true {} ++ ((B.segmentsOf t.id).map (·.ser true {})).flatten := by
      rw [Boxes.ser_append, hin, j4]
    rw [← hser, probe_ser _ (Boxes.ok_append _ _ _ _ _ w2 (by rw [hin]; exact Boxes.ok_mono _ _ _ _ j1))
      (Boxes.unknown_append _ _ _ _ w3 (by rw [hin]; exact j2)) (by rw [hser, List.length_append]; omega) fuel
      (by rw [count_eq, num_append]; omega) pos']
    unfold Boxes.summary
    rw [summaryFrom_append, hs, hin]
    simp only [Boxes.andThen, Nat.zero_add]
    obtain ⟨flag, e3⟩ := summary_media _ (media_media _ j3) {} ((B.initOf t.id).ser true {}).length (false, keep t.id true i)
    rw [e3, q1]
    rfl


/-! ## A movie with two tracks and three fragments -/

def withID (bd : BoxDef) (id : Nat) : SV := SV.set bd.fields.zero "TrackID" (.uint id)

/-- a track with an ID and a sample entry -/
def oneTrak (id : Nat) (entry : Boxes) (rest : Boxes) : Boxes :=
  plainBox tTrak Cat.bdTrak [] (plainBox tTkhd Cat.bdTkhd (withID Cat.bdTkhd id) .nil
    (plainBox tMdia Cat.bdMdia [] (plainBox tMdhd Cat.bdMdhd Cat.bdMdhd.fields.zero .nil
      (plainBox tMinf Cat.bdMinf [] (plainBox tStbl Cat.bdStbl []
        (plainBox tStsd Cat.bdStsd (SV.set Cat.bdStsd.fields.zero "EntryCount" (.uint 1)) entry
          (plainBox tStts Cat.bdStts Cat.bdStts.fields.zero .nil
            (plainBox tStsc Cat.bdStsc Cat.bdStsc.fields.zero .nil
              (plainBox tStco Cat.bdStco Cat.bdStco.fields.zero .nil .nil)))) .nil) .nil)) .nil)) rest

/-- a fragment of a track, with these data -/
def oneMoof (id : Nat) (data : List Nat) (rest : Boxes) : Boxes :=
  plainBox tMoof Cat.bdMoof [] (plainBox tTraf Cat.bdTraf [] (plainBox tTfhd Cat.bdTfhd (withID Cat.bdTfhd id) .nil
    (plainBox tTrun Cat.bdTrun Cat.bdTrun.fields.zero .nil .nil)) .nil)
    (plainBox tMdat Cat.bdMdat [("Data", .slice (data.map .uint))] .nil rest)

/-- `ftyp`, `moov` with an AVC track 1 and an AAC track 2, fragments of the tracks 1, 2 and 1 -/
def twoTracks : Boxes :=
  plainBox tFtyp Cat.bdFtyp isoFtyp .nil
    (plainBox tMoov Cat.bdMoov [] (plainBox tMvhd Cat.bdMvhd thousand .nil
      (oneTrak 1 (plainBox tAvc1 Cat.bdVisualSampleEntry Cat.bdVisualSampleEntry.fields.zero .nil .nil)
        (oneTrak 2 (plainBox tMp4a Cat.bdAudioSampleEntry Cat.bdAudioSampleEntry.fields.zero .nil .nil) .nil)))
      (oneMoof 1 [1, 2] (oneMoof 2 [3] (oneMoof 1 [4] .nil))))

theorem def_moov (ctx : Ctx) : BoxMap.std.getBoxDef Mp4.tMoov ctx = some Cat.bdMoov := by only_def
theorem def_trak (ctx : Ctx) : BoxMap.std.getBoxDef tTrak ctx = some Cat.bdTrak := by only_def
theorem def_mdia (ctx : Ctx) : BoxMap.std.getBoxDef tMdia ctx = some Cat.bdMdia := by only_def
theorem def_mdhd (ctx : Ctx) : BoxMap.std.getBoxDef tMdhd ctx = some Cat.bdMdhd := by only_def
theorem def_minf (ctx : Ctx) : BoxMap.std.getBoxDef tMinf ctx = some Cat.bdMinf := by only_def
theorem def_stbl (ctx : Ctx) : BoxMap.std.getBoxDef tStbl ctx = some Cat.bdStbl := by only_def
theorem def_stsd (ctx : Ctx) : BoxMap.std.getBoxDef tStsd ctx = some Cat.bdStsd := by only_def
theorem def_stts (ctx : Ctx) : BoxMap.std.getBoxDef tStts ctx = some Cat.bdStts := by only_def
theorem def_stsc (ctx : Ctx) : BoxMap.std.getBoxDef tStsc ctx = some Cat.bdStsc := by only_def
theorem def_stco (ctx : Ctx) : BoxMap.std.getBoxDef tStco ctx = some Cat.bdStco := by only_def
theorem def_moof (ctx : Ctx) : BoxMap.std.getBoxDef tMoof ctx = some Cat.bdMoof := by only_def
theorem def_traf (ctx : Ctx) : BoxMap.std.getBoxDef tTraf ctx = some Cat.bdTraf := by only_def
theorem def_tfhd (ctx : Ctx) : BoxMap.std.getBoxDef tTfhd ctx = some Cat.bdTfhd := by only_def
theorem def_trun (ctx : Ctx) : BoxMap.std.getBoxDef tTrun ctx = some Cat.bdTrun := by only_def
theorem def_mdat (ctx : Ctx) : BoxMap.std.getBoxDef tMdat ctx = some Cat.bdMdat := by only_def
theorem def_tkhd (ctx : Ctx) : BoxMap.std.getBoxDef tTkhd ctx = some Cat.bdTkhd := by only_def
theorem def_avc1 (ctx : Ctx) : BoxMap.std.getBoxDef tAvc1 ctx = some Cat.bdVisualSampleEntry := by only_def
theorem def_mp4a (ctx : Ctx) : BoxMap.std.getBoxDef tMp4a ctx = some Cat.bdAudioSampleEntry := by only_def

/-- a box that can be written, given what boxes of its type are, its children and the boxes behind it -/
macro "ok_box " d:term:max k:term:max r:term:max : term => `(⟨by decide +kernel, by decide, $d _, by decide +kernel, $k, $r⟩)

theorem twoTracks_ok : twoTracks.Ok true false {} :=
  ok_box std_ftyp_def trivial (ok_box def_moov (ok_box std_mvhd_def trivial (ok_box def_trak (ok_box def_tkhd trivial (ok_box def_mdia (ok_box def_mdhd trivial (ok_box def_minf (ok_box def_stbl (ok_box def_stsd (ok_box def_avc1 trivial trivial) (ok_box def_stts trivial (ok_box def_stsc trivial (ok_box def_stco trivial trivial)))) trivial) trivial)) trivial)) (ok_box def_trak (ok_box def_tkhd trivial (ok_box def_mdia (ok_box def_mdhd trivial (ok_box def_minf (ok_box def_stbl (ok_box def_stsd (ok_box def_mp4a trivial trivial) (ok_box def_stts trivial (ok_box def_stsc trivial (ok_box def_stco trivial trivial)))) trivial) trivial)) trivial)) trivial)))
    (ok_box def_moof (ok_box def_traf (ok_box def_tfhd trivial (ok_box def_trun trivial trivial)) trivial) (ok_box def_mdat trivial (ok_box def_moof (ok_box def_traf (ok_box def_tfhd trivial (ok_box def_trun trivial trivial)) trivial) (ok_box def_mdat trivial (ok_box def_moof (ok_box def_traf (ok_box def_tfhd trivial (ok_box def_trun trivial trivial)) trivial) (ok_box def_mdat trivial trivial)))))))

theorem twoTracks_unknown : twoTracks.Unknown true {} ∧ twoTracks.Neutral :=
  ⟨by repeat' constructor, by decide +kernel, by decide, by decide, by decide, by decide, by decide, by decide, by decide, by decide, by decide,
    by decide, by decide, by decide, by decide, by decide, by decide, trivial⟩

/-- What the theorems say about this movie: two tracks of different kinds, of which one has two segments. -/
example : (match Tool.divide (twoTracks.ser true {}) 60 with
    | (.ok (), [t, u], s) => t.id == 1 && u.id == 2 && decide (t.kind ≠ u.kind) && s.inits t.kind == (twoTracks.initOf 1).ser true {} &&
        s.inits u.kind == (twoTracks.initOf 2).ser true {} && decide ((s.inits t.kind).length ≠ (s.inits u.kind).length) &&
        segmentFiles s t == (twoTracks.segmentsOf 1).map (·.ser true {}) && (segmentFiles s t).length == 2 &&
        (match (probe BoxMap.std (s.inits t.kind ++ (segmentFiles s t).flatten) 60 0).1 with
          | .ok i => i.tracks.map (·.trackID) == [1] && i.segments.map (·.trackID) == [1, 1] &&
              i.segments.map (·.moofOffset) == startsFrom (s.inits t.kind).length (segmentFiles s t)
          | _ => false)
    | _ => false) = true := by decide +kernel

example : (match (probe BoxMap.std (twoTracks.ser true {}) 60 0).1 with
    | .ok i => i.tracks.map (·.trackID) == [1, 2] && i.segments.map (·.trackID) == [1, 2, 1]
    | _ => false) = true := by decide +kernel

end Mp4.Props
