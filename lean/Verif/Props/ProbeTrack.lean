import Verif.Spec.ProbeTrack
import Verif.Props.ProbeTables
import Verif.Props.Extract
import Verif.Lemmas.WfCheck

/-!
# C53: the metadata of a track
-/

namespace Mp4.Props

open Mp4

variable {d : Bytes}

/-- The paths `Probe` asks for. -/
theorem trakPaths_wanted : trakPaths = trakWanted.map (·.map fourcc) := by decide

theorem lastOf_cons (bi : BoxInfo) (v : BoxVal) (l : List (BoxInfo × BoxVal)) (ts : List BoxType) :
    lastOf ((bi, v) :: l) ts = (lastOf l ts).or (if bi.type ∈ ts then some (bi, v) else none) := by
  unfold lastOf
  by_cases h : bi.type ∈ ts
  · rw [List.filter_cons_of_pos (by simpa using h), if_pos h, List.getLast?_cons]
    cases ((l.filter fun x => decide (x.1.type ∈ ts)).getLast?) <;> rfl
  · rw [List.filter_cons_of_neg (by simpa using h), if_neg h]
    cases ((l.filter fun x => decide (x.1.type ∈ ts)).getLast?) <;> rfl

/-- the types of sample entries that tell a codec -/
def entryTypes : List BoxType := [tAvc1, tEncv, tMp4a, tEnca]
/-- the types of audio sample entries -/
def audioTypes : List BoxType := [tMp4a, tEnca]

theorem collectOne_codec {f g : Found} {t : BoxType} {v : BoxVal} (h : collectOne f t v = some g) :
    g.codec = (if t ∈ entryTypes then codecOf (some t) else f.codec) ∧
    g.audio = (if t ∈ audioTypes then some v.sv else none).or f.audio := by
  by_cases he : t ∈ entryTypes
  · simp only [entryTypes, List.mem_cons, List.not_mem_nil, or_false] at he
    rcases he with rfl | rfl | rfl | rfl
    · rw [assert_some (g := fun s => { f with codec := .avc1, avc1 := some s }) h]; exact ⟨rfl, rfl⟩
    · cases h; exact ⟨rfl, rfl⟩
    · rw [assert_some (g := fun s => { f with codec := .mp4a, audio := some s }) h]; exact ⟨rfl, rfl⟩
    · rw [assert_some (g := fun s => { f with codec := .mp4a, encrypted := true, audio := some s }) h]; exact ⟨rfl, rfl⟩
  · rw [if_neg he, if_neg (fun hc => he (by
      simp only [audioTypes, entryTypes, List.mem_cons, List.not_mem_nil, or_false] at hc ⊢
      exact .inr (.inr hc)))]
    simp only [entryTypes, List.mem_cons, List.not_mem_nil, or_false, not_or] at he
    obtain ⟨h1, h2, h3, h4⟩ := he
    unfold collectOne at h
    rw [if_neg h1, if_neg h2, if_neg h3, if_neg h4] at h
    by_cases eTkhd : t = tTkhd
    · rw [if_pos eTkhd] at h; rw [assert_some h]; exact ⟨rfl, rfl⟩
    rw [if_neg eTkhd] at h
    by_cases eElst : t = tElst
    · rw [if_pos eElst] at h; rw [assert_some h]; exact ⟨rfl, rfl⟩
    rw [if_neg eElst] at h
    by_cases eMdhd : t = tMdhd
    · rw [if_pos eMdhd] at h; rw [assert_some h]; exact ⟨rfl, rfl⟩
    rw [if_neg eMdhd] at h
    by_cases eAvcC : t = tAvcC
    · rw [if_pos eAvcC] at h; rw [assert_some h]; exact ⟨rfl, rfl⟩
    rw [if_neg eAvcC] at h
    by_cases eEsds : t = tEsds
    · rw [if_pos eEsds] at h; rw [assert_some h]; exact ⟨rfl, rfl⟩
    rw [if_neg eEsds] at h
    by_cases eStco : t = tStco
    · rw [if_pos eStco] at h; rw [assert_some h]; exact ⟨rfl, rfl⟩
    rw [if_neg eStco] at h
    by_cases eStts : t = tStts
    · rw [if_pos eStts] at h; rw [assert_some h]; exact ⟨rfl, rfl⟩
    rw [if_neg eStts] at h
    by_cases eStsc : t = tStsc
    · rw [if_pos eStsc] at h; rw [assert_some h]; exact ⟨rfl, rfl⟩
    rw [if_neg eStsc] at h
    by_cases eCtts : t = tCtts
    · rw [if_pos eCtts] at h; rw [assert_some h]; exact ⟨rfl, rfl⟩
    rw [if_neg eCtts] at h
    by_cases eStsz : t = tStsz
    · rw [if_pos eStsz] at h; rw [assert_some h]; exact ⟨rfl, rfl⟩
    rw [if_neg eStsz] at h
    by_cases eCo64 : t = tCo64
    · rw [if_pos eCo64] at h; rw [assert_some h]; exact ⟨rfl, rfl⟩
    rw [if_neg eCo64] at h
    cases h
    exact ⟨rfl, rfl⟩

theorem collect_codec : ∀ (l : List (BoxInfo × BoxVal)) (f g : Found), collect f l = some g →
    g.codec = (match lastOf l entryTypes with | some x => codecOf (some x.1.type) | none => f.codec) ∧
    g.audio = ((lastOf l audioTypes).map (·.2.sv)).or f.audio
  | [], f, g, h => by cases h; exact ⟨rfl, rfl⟩
  | (bi, v) :: l, f, g, h => by
    simp only [collect] at h
    cases hc : collectOne f bi.type v with
    | none => rw [hc] at h; cases h
    | some f1 =>
      rw [hc] at h
      obtain ⟨a1, a2⟩ := collectOne_codec hc
      obtain ⟨b1, b2⟩ := collect_codec l f1 g h
      rw [lastOf_cons, lastOf_cons, b1, b2, a1, a2]
      constructor
      · cases lastOf l entryTypes with
        | some x => rfl
        | none =>
          simp only [Option.none_or]
          by_cases hm : bi.type ∈ entryTypes
          · rw [if_pos hm, if_pos hm]
          · rw [if_neg hm, if_neg hm]
      · cases lastOf l audioTypes with
        | some x => rfl
        | none =>
          simp only [Option.none_or, Option.map_none]
          by_cases hm : bi.type ∈ audioTypes
          · rw [if_pos hm, if_pos hm]; rfl
          · rw [if_neg hm, if_neg hm]; rfl

theorem elstEntries_eq (sv : SV) : elstEntries sv = elstTable sv := by
  unfold elstEntries elstTable
  refine List.map_congr_left fun e _ => ?_
  rcases hv : sv.version with _ | _ | n
  · rfl
  · rfl
  · rfl

/-- **C53**, partial — If a `trak` box can be summarised, then, `l` being the boxes below it with one of the paths of `trakWanted`,

* the track ID is that of the (last) `tkhd` box;
* timescale and duration are those of the (last) `mdhd` box, the duration being that of the version of the box;
* the edit list has the entries of the (last) `elst` box in order, or is empty if there is no such box;
* the track is encrypted if and only if there is an `encv` or `enca` sample entry;
* the codec is told by the last sample entry, unknown if there is none of `avc1`, `encv`, `mp4a`, `enca`;
* there is AVC information if and only if there are an `avc1` sample entry and an `avcC` box; it has the numbers of these;
* there is audio information if and only if there are an `mp4a` or `enca` sample entry and an `esds` box; it has the profile
  (see C55) and the channel count of these.

Missing: for an encrypted video track there is no AVC information though its `avcC` box is looked for (`encrypted_avc_missing`); and if there are several
sample entries, codec, encryption and information may come from different ones (`entries_mixed`). -/
theorem track_fields_partial (m : BoxMap) (fuel : Nat) (bi : BoxInfo) (pos pos' : Nat) (t : Track)
    (h : probeTrak m d fuel bi pos = (.ok t, pos')) :
    ∃ l, extractBoxesWithPayload m d fuel (some bi) (trakWanted.map (·.map fourcc)) pos = (.ok l, pos') ∧
    (∃ tkhd, lastPayload l (fourcc "tkhd") = some tkhd ∧ t.trackID = tkhd.uint "TrackID") ∧
    (∃ mdhd, lastPayload l (fourcc "mdhd") = some mdhd ∧ t.timescale = mdhd.uint "Timescale" ∧
      t.duration = match mdhd.version with | 0 => mdhd.uint "DurationV0" | 1 => mdhd.uint "DurationV1" | _ => 0) ∧
    t.editList = ((lastPayload l (fourcc "elst")).map elstTable).getD [] ∧
    (t.encrypted = true ↔ ∃ x ∈ l, x.1.type = fourcc "encv" ∨ x.1.type = fourcc "enca") ∧
    t.codec = codecOf ((lastOf l [fourcc "avc1", fourcc "encv", fourcc "mp4a", fourcc "enca"]).map (·.1.type)) ∧
    t.avc = ((lastPayload l (fourcc "avc1")).bind fun e => (lastPayload l (fourcc "avcC")).map fun c =>
      { configurationVersion := c.uint "ConfigurationVersion", profile := c.uint "Profile"
        profileCompatibility := c.uint "ProfileCompatibility", level := c.uint "Level"
        lengthSize := (c.uint "LengthSizeMinusOne" + 1) % 2 ^ 16, width := e.uint "Width", height := e.uint "Height" }) ∧
    (∀ e s, lastOf l [fourcc "mp4a", fourcc "enca"] = some e → lastPayload l (fourcc "esds") = some s →
      ∃ oti aud, detectAACProfile s = .ok (oti, aud) ∧ t.mp4a = some ⟨oti, aud, e.2.sv.uint "ChannelCount"⟩) ∧
    (lastOf l [fourcc "mp4a", fourcc "enca"] = none ∨ lastPayload l (fourcc "esds") = none → t.mp4a = none) := by
  obtain ⟨l, f, h1, h2, h3⟩ := probeTrak_ok h
  obtain ⟨tkhd, mdhd, mp4a, chunks, stts, stsc, g1, g2, g3, -, -, -, -, -, k1, k2, k3, k4, k5, k6, k7, k8⟩ := trackOf_ok h3
  obtain ⟨c1, c2, c3, c4, c5, c6, -, -, -, -, -, -, c13⟩ := collect_eq l {} f h2
  obtain ⟨cc, ca⟩ := collect_codec l {} f h2
  rw [Option.or_none] at c1 c2 c3 c4 c5 c6 ca
  rw [g1] at c1
  rw [g2] at c3
  have eM : audioTypes = [fourcc "mp4a", fourcc "enca"] := by decide
  have eE : entryTypes = [fourcc "avc1", fourcc "encv", fourcc "mp4a", fourcc "enca"] := by decide
  have e1 : tTkhd = fourcc "tkhd" := by decide
  have e2 : tElst = fourcc "elst" := by decide
  have e3 : tMdhd = fourcc "mdhd" := by decide
  have e4 : tAvc1 = fourcc "avc1" := by decide
  have e5 : tAvcC = fourcc "avcC" := by decide
  have e6 : tEsds = fourcc "esds" := by decide
  have e7 : tEncv = fourcc "encv" := by decide
  have e8 : tEnca = fourcc "enca" := by decide
  rw [eM] at ca
  rw [eE] at cc
  rw [e1] at c1
  rw [e2] at c2
  rw [e3] at c3
  rw [e4] at c4
  rw [e5] at c5
  rw [e6] at c6
  rw [e7, e8] at c13
  refine ⟨l, trakPaths_wanted ▸ h1, ⟨tkhd, c1.symm, k1⟩, ⟨mdhd, c3.symm, k2, ?_⟩, ?_, ?_, ?_, ?_, ?_, ?_⟩
  · rw [k3]
    unfold Acc.mdhdDuration Acc.uintOf
    rcases mdhd.version with _ | _ | n <;> rfl
  · rw [k6, c2]
    cases lastPayload l (fourcc "elst") with
    | none => rfl
    | some s => exact elstEntries_eq s
  · rw [k5, c13]
    simp only [hasType, Bool.or_false, Bool.or_eq_true, List.any_eq_true, beq_iff_eq]
    constructor
    · rintro (⟨x, hx, hy⟩ | ⟨x, hx, hy⟩)
      · exact ⟨x, hx, .inl hy⟩
      · exact ⟨x, hx, .inr hy⟩
    · rintro ⟨x, hx, hy | hy⟩
      · exact .inl ⟨x, hx, hy⟩
      · exact .inr ⟨x, hx, hy⟩
  · rw [k4, cc]
    cases lastOf l [fourcc "avc1", fourcc "encv", fourcc "mp4a", fourcc "enca"] <;> rfl
  · rw [k7]
    unfold avcInfo
    rw [c4, c5]
    cases lastPayload l (fourcc "avc1") <;> cases lastPayload l (fourcc "avcC") <;> rfl
  · intro e s he hs
    unfold mp4aInfo at g3
    rw [ca, c6, he, hs] at g3
    simp only [Option.map_some] at g3
    cases hp : detectAACProfile s with
    | ok p =>
      rw [hp] at g3
      cases g3
      exact ⟨p.1, p.2, rfl, k8⟩
    | err e => rw [hp] at g3; cases g3
    | panic => rw [hp] at g3; cases g3
    | hang => rw [hp] at g3; cases g3
  · intro hn
    unfold mp4aInfo at g3
    rw [ca, c6] at g3
    rcases hn with hn | hn
    · rw [hn] at g3
      cases g3
      exact k8
    · rw [hn] at g3
      cases hl : lastOf l [fourcc "mp4a", fourcc "enca"] with
      | none => rw [hl] at g3; cases g3; exact k8
      | some x => rw [hl] at g3; cases g3; exact k8

/-- **C53**, in a file — For a `trak` box of a well-formed file (with the row `kids` of its children), the boxes the summary is taken from
are exactly the boxes below it with one of the paths of `trakWanted`, in file order, with the payloads `ReadPayload`
gives.  (No box on the way to one of these may be a leaf, and what decoding a box depends on must be the same for the box as for
the `trak` box; see C25 and C26.) -/
theorem track_boxes_partial (hd : d.length ≤ 2 ^ 48) (bi : BoxInfo) (n : Nat) (kids rest : Forest) (isRoot : Bool)
    (path : List BoxType) (ctx : Ctx) (at_ total : Nat) (hwf : (Forest.node bi n kids rest).WF d isRoot path ctx at_ total)
    (ht : bi.type = fourcc "trak") (hleaf : ∀ x ∈ leaves [] kids, ¬ AskedBelow (trakWanted.map (·.map fourcc)) x.1)
    (fuel : Nat) (hf : kids.count < fuel) (pos pos' : Nat) (l : List (BoxInfo × BoxVal))
    (h : extractBoxesWithPayload BoxMap.std d fuel (some bi) (trakWanted.map (·.map fourcc)) pos = (.ok l, pos')) :
    l.map (·.1) = askedBoxes (trakWanted.map (·.map fourcc)) kids ∧
    ∀ x ∈ l, Ctx.Alike x.1.type bi.ctx x.1.ctx → ∀ p0, ∃ n p, readPayloadP BoxMap.std d x.1 p0 = (.ok (x.2, n), p) := by
  obtain ⟨parent', p, h1, h2⟩ := (extract_payload_partial fuel (some bi) _ pos).1 l pos' h
  have h3 := extract_below_exact_partial hd bi n kids rest isRoot path ctx at_ total hwf (by rw [ht]; decide) (by rw [ht]; decide)
    (by rw [ht]; decide) (trakWanted.map (·.map fourcc)) (by decide) hleaf fuel hf pos
  rw [h1] at h3
  have h4 := Out.ok.inj h3
  have h5 := congrArg Prod.fst h4
  have h6 : parent' = some bi := congrArg Prod.snd h4
  subst h6
  exact ⟨h5, h2⟩

/-! ## Concrete files -/

/-- A track with an `encv` sample entry (encrypted video) of 640x360, which has an `avcC` box. -/
def encFile : Bytes := [0, 0, 1, 65, 116, 114, 97, 107, 0, 0, 0, 92, 116, 107, 104, 100, 0, 0, 0, 0, 0, 0, 0, 0, 0, 0, 0, 0, 0, 0, 0, 3,
  0, 0, 0, 0, 0, 0, 0, 0, 0, 0, 0, 0, 0, 0, 0, 0, 0, 0, 0, 0, 0, 0, 0, 0, 0, 0, 0, 0, 0, 0, 0, 0, 0, 0, 0, 0, 0, 0, 0, 0, 0, 0, 0, 0, 0,
  0, 0, 0, 0, 0, 0, 0, 0, 0, 0, 0, 0, 0, 0, 0, 0, 0, 0, 0, 0, 0, 0, 0, 0, 0, 0, 221, 109, 100, 105, 97, 0, 0, 0, 32, 109, 100, 104, 100,
  0, 0, 0, 0, 0, 0, 0, 0, 0, 0, 0, 0, 0, 0, 2, 88, 0, 0, 4, 176, 0, 0, 0, 0, 0, 0, 0, 181, 109, 105, 110, 102, 0, 0, 0, 173, 115, 116,
  98, 108, 0, 0, 0, 117, 115, 116, 115, 100, 0, 0, 0, 0, 0, 0, 0, 1, 0, 0, 0, 101, 101, 110, 99, 118, 0, 0, 0, 0, 0, 0, 0, 1, 0, 0, 0, 0,
  0, 0, 0, 0, 0, 0, 0, 0, 0, 0, 0, 0, 2, 128, 1, 104, 0, 0, 0, 0, 0, 0, 0, 0, 0, 0, 0, 0, 0, 1, 0, 0, 0, 0, 0, 0, 0, 0, 0, 0, 0, 0, 0, 0,
  0, 0, 0, 0, 0, 0, 0, 0, 0, 0, 0, 0, 0, 0, 0, 0, 0, 0, 0, 24, 255, 255, 0, 0, 0, 15, 97, 118, 99, 67, 1, 66, 192, 30, 255, 224, 0, 0, 0,
  0, 16, 115, 116, 116, 115, 0, 0, 0, 0, 0, 0, 0, 0, 0, 0, 0, 16, 115, 116, 115, 99, 0, 0, 0, 0, 0, 0, 0, 0, 0, 0, 0, 16, 115, 116, 99,
  111, 0, 0, 0, 0, 0, 0, 0, 0]

/-- A track with two sample entries: `avc1` with `avcC`, and `enca` with `esds`. -/
def mixFile : Bytes := [0, 0, 1, 132, 116, 114, 97, 107, 0, 0, 0, 92, 116, 107, 104, 100, 0, 0, 0, 0, 0, 0, 0, 0, 0, 0, 0, 0, 0, 0, 0, 3,
  0, 0, 0, 0, 0, 0, 0, 0, 0, 0, 0, 0, 0, 0, 0, 0, 0, 0, 0, 0, 0, 0, 0, 0, 0, 0, 0, 0, 0, 0, 0, 0, 0, 0, 0, 0, 0, 0, 0, 0, 0, 0, 0, 0, 0,
  0, 0, 0, 0, 0, 0, 0, 0, 0, 0, 0, 0, 0, 0, 0, 0, 0, 0, 0, 0, 0, 0, 0, 0, 0, 1, 32, 109, 100, 105, 97, 0, 0, 0, 32, 109, 100, 104, 100,
  0, 0, 0, 0, 0, 0, 0, 0, 0, 0, 0, 0, 0, 0, 2, 88, 0, 0, 4, 176, 0, 0, 0, 0, 0, 0, 0, 248, 109, 105, 110, 102, 0, 0, 0, 240, 115, 116,
  98, 108, 0, 0, 0, 184, 115, 116, 115, 100, 0, 0, 0, 0, 0, 0, 0, 2, 0, 0, 0, 101, 97, 118, 99, 49, 0, 0, 0, 0, 0, 0, 0, 1, 0, 0, 0, 0,
  0, 0, 0, 0, 0, 0, 0, 0, 0, 0, 0, 0, 2, 128, 1, 104, 0, 0, 0, 0, 0, 0, 0, 0, 0, 0, 0, 0, 0, 1, 0, 0, 0, 0, 0, 0, 0, 0, 0, 0, 0, 0, 0, 0,
  0, 0, 0, 0, 0, 0, 0, 0, 0, 0, 0, 0, 0, 0, 0, 0, 0, 0, 0, 24, 255, 255, 0, 0, 0, 15, 97, 118, 99, 67, 1, 66, 192, 30, 255, 224, 0, 0, 0,
  0, 67, 101, 110, 99, 97, 0, 0, 0, 0, 0, 0, 0, 1, 0, 0, 0, 0, 0, 0, 0, 0, 0, 2, 0, 16, 0, 0, 0, 0, 172, 68, 0, 0, 0, 0, 0, 31, 101, 115,
  100, 115, 0, 0, 0, 0, 4, 13, 64, 21, 0, 0, 0, 0, 0, 0, 0, 0, 0, 0, 0, 5, 2, 19, 144, 0, 0, 0, 16, 115, 116, 116, 115, 0, 0, 0, 0, 0, 0,
  0, 0, 0, 0, 0, 16, 115, 116, 115, 99, 0, 0, 0, 0, 0, 0, 0, 0, 0, 0, 0, 16, 115, 116, 99, 111, 0, 0, 0, 0, 0, 0, 0, 0]

/-- A track with an `mp4a` sample entry with `esds`, and an edit list of two entries. -/
def audioFile : Bytes := [0, 0, 1, 79, 116, 114, 97, 107, 0, 0, 0, 92, 116, 107, 104, 100, 0, 0, 0, 0, 0, 0, 0, 0, 0, 0, 0, 0, 0, 0, 0,
  3, 0, 0, 0, 0, 0, 0, 0, 0, 0, 0, 0, 0, 0, 0, 0, 0, 0, 0, 0, 0, 0, 0, 0, 0, 0, 0, 0, 0, 0, 0, 0, 0, 0, 0, 0, 0, 0, 0, 0, 0, 0, 0, 0, 0,
  0, 0, 0, 0, 0, 0, 0, 0, 0, 0, 0, 0, 0, 0, 0, 0, 0, 0, 0, 0, 0, 0, 0, 0, 0, 0, 0, 48, 101, 100, 116, 115, 0, 0, 0, 40, 101, 108, 115,
  116, 0, 0, 0, 0, 0, 0, 0, 2, 0, 0, 0, 100, 255, 255, 255, 255, 0, 1, 0, 0, 0, 0, 4, 76, 0, 0, 0, 20, 0, 1, 0, 0, 0, 0, 0, 187, 109,
  100, 105, 97, 0, 0, 0, 32, 109, 100, 104, 100, 0, 0, 0, 0, 0, 0, 0, 0, 0, 0, 0, 0, 0, 0, 2, 88, 0, 0, 4, 176, 0, 0, 0, 0, 0, 0, 0, 147,
  109, 105, 110, 102, 0, 0, 0, 139, 115, 116, 98, 108, 0, 0, 0, 83, 115, 116, 115, 100, 0, 0, 0, 0, 0, 0, 0, 1, 0, 0, 0, 67, 109, 112,
  52, 97, 0, 0, 0, 0, 0, 0, 0, 1, 0, 0, 0, 0, 0, 0, 0, 0, 0, 2, 0, 16, 0, 0, 0, 0, 172, 68, 0, 0, 0, 0, 0, 31, 101, 115, 100, 115, 0, 0,
  0, 0, 4, 13, 64, 21, 0, 0, 0, 0, 0, 0, 0, 0, 0, 0, 0, 5, 2, 19, 144, 0, 0, 0, 16, 115, 116, 116, 115, 0, 0, 0, 0, 0, 0, 0, 0, 0, 0, 0,
  16, 115, 116, 115, 99, 0, 0, 0, 0, 0, 0, 0, 0, 0, 0, 0, 16, 115, 116, 99, 111, 0, 0, 0, 0, 0, 0, 0, 0]

/-- A track with an `avc1` sample entry with `avcC`. -/
def videoFile : Bytes := [0, 0, 1, 65, 116, 114, 97, 107, 0, 0, 0, 92, 116, 107, 104, 100, 0, 0, 0, 0, 0, 0, 0, 0, 0, 0, 0, 0, 0, 0, 0,
  4, 0, 0, 0, 0, 0, 0, 0, 0, 0, 0, 0, 0, 0, 0, 0, 0, 0, 0, 0, 0, 0, 0, 0, 0, 0, 0, 0, 0, 0, 0, 0, 0, 0, 0, 0, 0, 0, 0, 0, 0, 0, 0, 0, 0,
  0, 0, 0, 0, 0, 0, 0, 0, 0, 0, 0, 0, 0, 0, 0, 0, 0, 0, 0, 0, 0, 0, 0, 0, 0, 0, 0, 221, 109, 100, 105, 97, 0, 0, 0, 32, 109, 100, 104,
  100, 0, 0, 0, 0, 0, 0, 0, 0, 0, 0, 0, 0, 0, 0, 2, 88, 0, 0, 4, 176, 0, 0, 0, 0, 0, 0, 0, 181, 109, 105, 110, 102, 0, 0, 0, 173, 115,
  116, 98, 108, 0, 0, 0, 117, 115, 116, 115, 100, 0, 0, 0, 0, 0, 0, 0, 1, 0, 0, 0, 101, 97, 118, 99, 49, 0, 0, 0, 0, 0, 0, 0, 1, 0, 0, 0,
  0, 0, 0, 0, 0, 0, 0, 0, 0, 0, 0, 0, 0, 2, 128, 1, 104, 0, 0, 0, 0, 0, 0, 0, 0, 0, 0, 0, 0, 0, 1, 0, 0, 0, 0, 0, 0, 0, 0, 0, 0, 0, 0, 0,
  0, 0, 0, 0, 0, 0, 0, 0, 0, 0, 0, 0, 0, 0, 0, 0, 0, 0, 0, 0, 24, 255, 255, 0, 0, 0, 15, 97, 118, 99, 67, 1, 66, 192, 30, 255, 224, 0, 0,
  0, 0, 16, 115, 116, 116, 115, 0, 0, 0, 0, 0, 0, 0, 0, 0, 0, 0, 16, 115, 116, 115, 99, 0, 0, 0, 0, 0, 0, 0, 0, 0, 0, 0, 16, 115, 116,
  99, 111, 0, 0, 0, 0, 0, 0, 0, 0]

/-- the `trak` box of one of these files -/
def trakBox (d : Bytes) : BoxInfo := ⟨0, d.length, 8, tTrak, false, {}⟩

/-- The track of `audioFile`. -/
def audioTrack : Track := {
  trackID := 3, timescale := 600, duration := 1200, codec := .mp4a, encrypted := false, editList := [⟨-1, 100⟩, ⟨20, 1100⟩]
  samples := [], chunks := [], avc := none, mp4a := some ⟨0x40, 2, 2⟩ }

theorem audioFile_track : probeTrak BoxMap.std audioFile 40 (trakBox audioFile) 0 = (.ok audioTrack, 335) := by decide +kernel

/-- the boxes in the `trak` box of `audioFile` -/
def audioKids : Forest :=
    .node ⟨8, 92, 8, fourcc "tkhd", false, {}⟩ 84 .nil
    (.node ⟨100, 48, 8, fourcc "edts", false, {}⟩ 0 
      (.node ⟨108, 40, 8, fourcc "elst", false, {}⟩ 32 .nil .nil)
    (.node ⟨148, 187, 8, fourcc "mdia", false, {}⟩ 0 
      (.node ⟨156, 32, 8, fourcc "mdhd", false, {}⟩ 24 .nil
      (.node ⟨188, 147, 8, fourcc "minf", false, {}⟩ 0 
        (.node ⟨196, 139, 8, fourcc "stbl", false, {}⟩ 0 
          (.node ⟨204, 83, 8, fourcc "stsd", false, {}⟩ 8 
            (.node ⟨220, 67, 8, fourcc "mp4a", false, {}⟩ 28 
              (.node ⟨256, 31, 8, fourcc "esds", false, {}⟩ 23 .nil .nil) .nil)
          (.node ⟨287, 16, 8, fourcc "stts", false, {}⟩ 8 .nil
          (.node ⟨303, 16, 8, fourcc "stsc", false, {}⟩ 8 .nil
          (.node ⟨319, 16, 8, fourcc "stco", false, {}⟩ 8 .nil .nil)))) .nil) .nil)) .nil))

theorem audioFile_wf : (Forest.node (trakBox audioFile) 0 audioKids .nil).WF audioFile true [] {} 0 0 :=
  wf_of_check (by decide +kernel)

/-- what `Probe` looks at in this file -/
theorem audioFile_boxes : ∃ l p, extractBoxesWithPayload BoxMap.std audioFile 40 (some (trakBox audioFile))
    (trakWanted.map (·.map fourcc)) 0 = (.ok l, p) ∧
    l.map (fun x => (x.1.offset, x.1.type)) = [(8, fourcc "tkhd"), (108, fourcc "elst"), (156, fourcc "mdhd"), (220, fourcc "mp4a"),
      (256, fourcc "esds"), (287, fourcc "stts"), (303, fourcc "stsc"), (319, fourcc "stco")] := by
  obtain ⟨l, h, -⟩ := track_fields_partial BoxMap.std 40 (trakBox audioFile) 0 335 audioTrack audioFile_track
  have := (track_boxes_partial (by decide +kernel) (trakBox audioFile) 0 audioKids .nil true [] {} 0 0 audioFile_wf (by decide)
    (by intro x hx; rw [show leaves [] audioKids = [] from rfl] at hx; cases hx) 40 (by decide) 0 335 l h).1
  refine ⟨l, _, h, ?_⟩
  have e : l.map (fun x => (x.1.offset, x.1.type)) = (l.map (·.1)).map fun b => (b.offset, b.type) := by
    rw [List.map_map]; rfl
  rw [e, this]
  decide +kernel

/-- The track of `videoFile`. -/
def videoTrack : Track := {
  trackID := 4, timescale := 600, duration := 1200, codec := .avc1, encrypted := false, editList := []
  samples := [], chunks := [], avc := some ⟨1, 66, 192, 30, 4, 640, 360⟩, mp4a := none }

theorem videoFile_track : probeTrak BoxMap.std videoFile 40 (trakBox videoFile) 0 = (.ok videoTrack, 321) := by decide +kernel

/-- The hypotheses of C53 are met by these files. -/
example := track_fields_partial BoxMap.std 40 (trakBox audioFile) 0 335 audioTrack audioFile_track
example := track_fields_partial BoxMap.std 40 (trakBox videoFile) 0 321 videoTrack videoFile_track

/-- Where C53 fails: for an encrypted video track there is no AVC information, though the track has its `avcC` box where `Probe` looks for it.
(So `FindIDRFrames` finds nothing in it, either.) -/
theorem encrypted_avc_missing : (match probeTrak BoxMap.std encFile 40 (trakBox encFile) 0 with
      | (.ok t, _) => t.codec == .avc1 && t.encrypted && t.avc == none
      | _ => false) = true ∧
    (match extractBoxWithPayload BoxMap.std encFile 40 (some (trakBox encFile))
        [fourcc "mdia", fourcc "minf", fourcc "stbl", fourcc "stsd", fourcc "encv", fourcc "avcC"] 0 with
      | (.ok [(_, v)], _) => v.sv.uint "Profile" == 66
      | _ => false) = true := by constructor <;> decide +kernel

/-- Where C53 fails: with a clear `avc1` and an encrypted `enca` sample entry, the track is an encrypted audio track with AVC
information. -/
theorem entries_mixed : (match probeTrak BoxMap.std mixFile 40 (trakBox mixFile) 0 with
      | (.ok t, _) => t.codec == .mp4a && t.encrypted && t.avc == some ⟨1, 66, 192, 30, 4, 640, 360⟩ && t.mp4a == some ⟨0x40, 2, 2⟩
      | _ => false) = true := by decide +kernel

end Mp4.Props
