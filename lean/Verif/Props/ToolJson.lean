import Verif.Lemmas.Json
import Verif.Props.ToolProbe

/-!
# C85: the report of `mp4tool probe` as JSON
-/

namespace Mp4.Props

open Mp4 Mp4.Tool Mp4.Spec

/-- The member of this name is there, unless the number is zero, and is the number. -/
def Omits (v : Json) (name : String) (n : Nat) : Prop := (v.get name).bind Json.nat? = (if n = 0 then none else some n) ∧ (n = 0 → v.get name = none)

/-- The JSON value describes the track. -/
structure TrackSays (secs : Nat → Nat → Str.Text) (v : Json) (t : TrackReport) : Prop where
  trackID : (v.get "TrackID").bind Json.nat? = some t.trackID
  timescale : (v.get "Timescale").bind Json.nat? = some t.timescale
  duration : (v.get "Duration").bind Json.nat? = some t.duration
  seconds : v.get "DurationSeconds" = some (.num (secs t.duration t.timescale))
  codec : v.get "Codec" = some (.str (Str.runes t.codec))
  encrypted : v.get "Encrypted" = some (.bool t.encrypted)
  width : Omits v "Width" t.width
  height : Omits v "Height" t.height
  sampleNum : Omits v "SampleNum" t.sampleNum
  chunkNum : Omits v "ChunkNum" t.chunkNum
  idrFrameNum : Omits v "IDRFrameNum" t.idrFrameNum
  bitrate : Omits v "Bitrate" t.bitrate
  maxBitrate : Omits v "MaxBitrate" t.maxBitrate
  names : v.names.Nodup

/-- The JSON value describes the file: every field of the report, with the characters of the brands, and the tracks one by one. -/
structure ReportSays (secs : Nat → Nat → Str.Text) (v : Json) (r : Report) : Prop where
  majorBrand : v.get "MajorBrand" = some (.str (Str.runes r.majorBrand))
  minorVersion : (v.get "MinorVersion").bind Json.nat? = some r.minorVersion
  compatibleBrands : v.get "CompatibleBrands" = some (.arr (r.compatibleBrands.map fun b => .str (Str.runes b)))
  fastStart : v.get "FastStart" = some (.bool r.fastStart)
  timescale : (v.get "Timescale").bind Json.nat? = some r.timescale
  duration : (v.get "Duration").bind Json.nat? = some r.duration
  seconds : v.get "DurationSeconds" = some (.num (secs r.duration r.timescale))
  tracks : ∃ l, v.get "Tracks" = some (.arr l) ∧ l.length = r.tracks.length ∧ ∀ k (h1 : k < l.length) (h2 : k < r.tracks.length), TrackSays secs l[k] r.tracks[k]
  names : v.names.Nodup

open JsonText

theorem semf_of : ∀ l : List (String × GoVal), semf (.of l) = l.map fun m => (Str.runes (Str.lit m.1), sem m.2)
  | [] => by rw [GoFields.of, semf]; rfl
  | (k, v) :: l => by rw [GoFields.of, semf, semf_of l]; rfl

theorem sems_of : ∀ l : List GoVal, sems (.of l) = l.map sem
  | [] => by rw [GoVals.of, sems]; rfl
  | v :: l => by rw [GoVals.of, sems, sems_of l]; rfl

theorem get_of (l : List (String × GoVal)) (name : String) :
    (sem (.obj (.of l))).get name = (l.find? fun m => Str.runes (Str.lit m.1) == name.toList.map Char.toNat).map fun m => sem m.2 := by
  rw [sem, semf_of]
  simp only [Json.get, List.find?_map, Option.map_map]
  rfl

theorem find_omit (p : String → Bool) (k : String) (n : Nat) :
    (omitZero k n).find? (fun m => p m.1) = if p k = false ∨ n = 0 then none else some (k, .uint n) := by
  unfold omitZero
  by_cases h : n = 0
  · rw [if_pos h, if_pos (.inr h)]; rfl
  · rw [if_neg h]
    cases hp : p k
    · rw [if_pos (.inl rfl), List.find?_cons, hp]; rfl
    · rw [if_neg (by simp [h]), List.find?_cons, hp]

theorem omits_of {l : List (String × GoVal)} {name : String} {n : Nat}
    (h : (l.find? fun m => Str.runes (Str.lit m.1) == name.toList.map Char.toNat) = if n = 0 then none else some (name, .uint n)) :
    Omits (sem (.obj (.of l))) name n := by
  unfold Omits
  rw [get_of, h]
  by_cases h0 : n = 0
  · rw [if_pos h0, if_pos h0]; exact ⟨rfl, fun _ => rfl⟩
  · rw [if_neg h0, if_neg h0]
    refine ⟨?_, fun h => absurd h h0⟩
    simp only [Option.map_some, Option.bind_some, sem, nat_num]

/-- the fields of a track, one behind the other -/
theorem track_find (secs : Nat → Nat → Str.Text) (t : TrackReport) (p : String → Bool) : ∃ l, t.val secs = .obj (.of l) ∧ l.find? (fun m => p m.1) =
    (((((((([("TrackID", GoVal.uint t.trackID), ("Timescale", .uint t.timescale), ("Duration", .uint t.duration), ("DurationSeconds", .float (secs t.duration t.timescale)),
      ("Codec", .str t.codec), ("Encrypted", .bool t.encrypted)] : List (String × GoVal)).find? (fun m => p m.1)).or
      (if p "Width" = false ∨ t.width = 0 then none else some ("Width", .uint t.width))).or
      (if p "Height" = false ∨ t.height = 0 then none else some ("Height", .uint t.height))).or
      (if p "SampleNum" = false ∨ t.sampleNum = 0 then none else some ("SampleNum", .uint t.sampleNum))).or
      (if p "ChunkNum" = false ∨ t.chunkNum = 0 then none else some ("ChunkNum", .uint t.chunkNum))).or
      (if p "IDRFrameNum" = false ∨ t.idrFrameNum = 0 then none else some ("IDRFrameNum", .uint t.idrFrameNum))).or
      (if p "Bitrate" = false ∨ t.bitrate = 0 then none else some ("Bitrate", .uint t.bitrate))).or
      (if p "MaxBitrate" = false ∨ t.maxBitrate = 0 then none else some ("MaxBitrate", .uint t.maxBitrate)) := by
  refine ⟨_, rfl, ?_⟩
  simp only [List.find?_append, find_omit]

/-- the names of the members of a track -/
def trackNames : List String := ["TrackID", "Timescale", "Duration", "DurationSeconds", "Codec", "Encrypted", "Width", "Height", "SampleNum", "ChunkNum", "IDRFrameNum", "Bitrate", "MaxBitrate"]

theorem names_differ : ∀ a ∈ trackNames, ∀ b ∈ trackNames, (Str.runes (Str.lit a) == b.toList.map Char.toNat) = decide (a = b) := by decide +kernel

theorem track_get (secs : Nat → Nat → Str.Text) (t : TrackReport) (b : String) (hb : b ∈ trackNames) : ∃ l, t.val secs = .obj (.of l) ∧
    (l.find? fun m => Str.runes (Str.lit m.1) == b.toList.map Char.toNat) =
    (((((((([("TrackID", GoVal.uint t.trackID), ("Timescale", .uint t.timescale), ("Duration", .uint t.duration), ("DurationSeconds", .float (secs t.duration t.timescale)),
      ("Codec", .str t.codec), ("Encrypted", .bool t.encrypted)] : List (String × GoVal)).find? (fun m => decide (m.1 = b))).or
      (if decide ("Width" = b) = false ∨ t.width = 0 then none else some ("Width", .uint t.width))).or
      (if decide ("Height" = b) = false ∨ t.height = 0 then none else some ("Height", .uint t.height))).or
      (if decide ("SampleNum" = b) = false ∨ t.sampleNum = 0 then none else some ("SampleNum", .uint t.sampleNum))).or
      (if decide ("ChunkNum" = b) = false ∨ t.chunkNum = 0 then none else some ("ChunkNum", .uint t.chunkNum))).or
      (if decide ("IDRFrameNum" = b) = false ∨ t.idrFrameNum = 0 then none else some ("IDRFrameNum", .uint t.idrFrameNum))).or
      (if decide ("Bitrate" = b) = false ∨ t.bitrate = 0 then none else some ("Bitrate", .uint t.bitrate))).or
      (if decide ("MaxBitrate" = b) = false ∨ t.maxBitrate = 0 then none else some ("MaxBitrate", .uint t.maxBitrate)) := by
  obtain ⟨l, h1, h2⟩ := track_find secs t (fun k => Str.runes (Str.lit k) == b.toList.map Char.toNat)
  refine ⟨l, h1, ?_⟩
  rw [h2]
  have hn := fun a ha => names_differ a ha b hb
  simp only [List.find?_cons, List.find?_nil, hn "TrackID" (by simp [trackNames]), hn "Timescale" (by simp [trackNames]), hn "Duration" (by simp [trackNames]), hn "DurationSeconds" (by simp [trackNames]), hn "Codec" (by simp [trackNames]), hn "Encrypted" (by simp [trackNames]), hn "Width" (by simp [trackNames]), hn "Height" (by simp [trackNames]), hn "SampleNum" (by simp [trackNames]), hn "ChunkNum" (by simp [trackNames]), hn "IDRFrameNum" (by simp [trackNames]), hn "Bitrate" (by simp [trackNames]), hn "MaxBitrate" (by simp [trackNames])]

theorem omit_names (k : String) (n : Nat) : ((omitZero k n).map (·.1)).Sublist [k] := by
  unfold omitZero
  split
  · exact List.nil_sublist _
  · exact List.Sublist.refl _

theorem names_of (l : List (String × GoVal)) : (sem (.obj (.of l))).names = (l.map (·.1)).map fun k => Str.runes (Str.lit k) := by
  rw [sem, semf_of]
  simp only [Json.names, List.map_map]
  rfl

theorem track_says (secs : Nat → Nat → Str.Text) (t : TrackReport) : TrackSays secs (sem (t.val secs)) t where
  trackID := by
    obtain ⟨l, h1, h2⟩ := track_get secs t "TrackID" (by simp [trackNames])
    rw [h1, get_of, h2]
    simp [sem, nat_num]
  timescale := by
    obtain ⟨l, h1, h2⟩ := track_get secs t "Timescale" (by simp [trackNames])
    rw [h1, get_of, h2]
    simp [sem, nat_num]
  duration := by
    obtain ⟨l, h1, h2⟩ := track_get secs t "Duration" (by simp [trackNames])
    rw [h1, get_of, h2]
    simp [sem, nat_num]
  seconds := by
    obtain ⟨l, h1, h2⟩ := track_get secs t "DurationSeconds" (by simp [trackNames])
    rw [h1, get_of, h2]
    simp [sem]
  codec := by
    obtain ⟨l, h1, h2⟩ := track_get secs t "Codec" (by simp [trackNames])
    rw [h1, get_of, h2]
    simp [sem]
  encrypted := by
    obtain ⟨l, h1, h2⟩ := track_get secs t "Encrypted" (by simp [trackNames])
    rw [h1, get_of, h2]
    simp [sem]
  width := by
    obtain ⟨l, h1, h2⟩ := track_get secs t "Width" (by simp [trackNames])
    rw [h1]
    refine omits_of ?_
    rw [h2]
    simp
  height := by
    obtain ⟨l, h1, h2⟩ := track_get secs t "Height" (by simp [trackNames])
    rw [h1]
    refine omits_of ?_
    rw [h2]
    simp
  sampleNum := by
    obtain ⟨l, h1, h2⟩ := track_get secs t "SampleNum" (by simp [trackNames])
    rw [h1]
    refine omits_of ?_
    rw [h2]
    simp
  chunkNum := by
    obtain ⟨l, h1, h2⟩ := track_get secs t "ChunkNum" (by simp [trackNames])
    rw [h1]
    refine omits_of ?_
    rw [h2]
    simp
  idrFrameNum := by
    obtain ⟨l, h1, h2⟩ := track_get secs t "IDRFrameNum" (by simp [trackNames])
    rw [h1]
    refine omits_of ?_
    rw [h2]
    simp
  bitrate := by
    obtain ⟨l, h1, h2⟩ := track_get secs t "Bitrate" (by simp [trackNames])
    rw [h1]
    refine omits_of ?_
    rw [h2]
    simp
  maxBitrate := by
    obtain ⟨l, h1, h2⟩ := track_get secs t "MaxBitrate" (by simp [trackNames])
    rw [h1]
    refine omits_of ?_
    rw [h2]
    simp
  names := by
    unfold TrackReport.val
    rw [names_of]
    have hn : (trackNames.map fun k => Str.runes (Str.lit k)).Nodup := by decide +kernel
    refine hn.sublist (List.Sublist.map _ ?_)
    simp only [List.map_append]
    exact ((((((List.Sublist.refl _).append (omit_names _ _)).append (omit_names _ _)).append (omit_names _ _)).append (omit_names _ _)).append (omit_names _ _)).append
      (omit_names _ _) |>.append (omit_names _ _)

theorem fines_of : ∀ l : List GoVal, (∀ v ∈ l, Fine v) → Fines (.of l)
  | [], _ => by rw [GoVals.of, Fines]; trivial
  | v :: l, h => by rw [GoVals.of, Fines]; exact ⟨h v List.mem_cons_self, fines_of l fun v hv => h v (List.mem_cons_of_mem _ hv)⟩

theorem finef_of : ∀ l : List (String × GoVal), (∀ m ∈ l, Fine m.2) → Finef (.of l)
  | [], _ => by rw [GoFields.of, Finef]; trivial
  | (k, v) :: l, h => by rw [GoFields.of, Finef]; exact ⟨h _ List.mem_cons_self, finef_of l fun v hv => h v (List.mem_cons_of_mem _ hv)⟩

/-- the text of `DurationSeconds` is a number, for time scales other than zero -/
def Numeric (secs : Nat → Nat → Str.Text) : Prop := ∀ duration timescale, timescale ≠ 0 → Json.IsNumber (secs duration timescale) ∧ ∀ c ∈ secs duration timescale, c < 0x80

theorem track_fine {secs : Nat → Nat → Str.Text} (hs : Numeric secs) {t : TrackReport} (h : t.timescale ≠ 0) : Fine (t.val secs) := by
  have ho : ∀ k n, ∀ m ∈ omitZero k n, Fine m.2 := by
    intro k n m hm
    unfold omitZero at hm
    split at hm
    · cases hm
    · rw [List.mem_singleton.1 hm, Fine] <;> simp
  unfold TrackReport.val
  rw [Fine]
  refine finef_of _ fun m hm => ?_
  simp only [List.mem_append] at hm
  rcases hm with ((((((hm | hm) | hm) | hm) | hm) | hm) | hm) | hm
  · simp only [List.mem_cons, List.not_mem_nil, or_false] at hm
    rcases hm with rfl | rfl | rfl | rfl | rfl | rfl
    all_goals first | (rw [Fine] <;> first | trivial | exact hs _ _ h | simp)
  all_goals exact ho _ _ m hm

/-- the names of the members of the report -/
def reportNames : List String := ["MajorBrand", "MinorVersion", "CompatibleBrands", "FastStart", "Timescale", "Duration", "DurationSeconds", "Tracks"]

theorem reportNames_differ : ∀ a ∈ reportNames, ∀ b ∈ reportNames, (Str.runes (Str.lit a) == b.toList.map Char.toNat) = decide (a = b) := by decide +kernel

theorem report_get (secs : Nat → Nat → Str.Text) (r : Report) (b : String) (hb : b ∈ reportNames) :
    (sem (r.val secs)).get b = (([("MajorBrand", GoVal.str r.majorBrand), ("MinorVersion", .uint r.minorVersion),
      ("CompatibleBrands", .arr (.of (r.compatibleBrands.map .str))), ("FastStart", .bool r.fastStart), ("Timescale", .uint r.timescale), ("Duration", .uint r.duration),
      ("DurationSeconds", .float (secs r.duration r.timescale)), ("Tracks", .arr (.of (r.tracks.map (·.val secs))))] : List (String × GoVal)).find?
        fun m => decide (m.1 = b)).map fun m => sem m.2 := by
  have hn := fun a ha => reportNames_differ a ha b hb
  unfold Report.val
  rw [get_of]
  simp only [List.find?_cons, List.find?_nil, hn "MajorBrand" (by simp [reportNames]), hn "MinorVersion" (by simp [reportNames]), hn "CompatibleBrands" (by simp [reportNames]), hn "FastStart" (by simp [reportNames]), hn "Timescale" (by simp [reportNames]), hn "Duration" (by simp [reportNames]), hn "DurationSeconds" (by simp [reportNames]), hn "Tracks" (by simp [reportNames])]

theorem report_says (secs : Nat → Nat → Str.Text) (r : Report) : ReportSays secs (sem (r.val secs)) r := by
  have e1 := report_get secs r "MajorBrand" (by simp [reportNames])
  have e2 := report_get secs r "MinorVersion" (by simp [reportNames])
  have e3 := report_get secs r "CompatibleBrands" (by simp [reportNames])
  have e4 := report_get secs r "FastStart" (by simp [reportNames])
  have e5 := report_get secs r "Timescale" (by simp [reportNames])
  have e6 := report_get secs r "Duration" (by simp [reportNames])
  have e7 := report_get secs r "DurationSeconds" (by simp [reportNames])
  have e8 := report_get secs r "Tracks" (by simp [reportNames])
  simp [sem] at e1 e2 e3 e4 e5 e6 e7 e8
  refine ⟨e1, by rw [e2]; exact nat_num _, ?_, e4, by rw [e5]; exact nat_num _, by rw [e6]; exact nat_num _, e7, ?_, ?_⟩
  · rw [e3, sems_of, List.map_map]
    congr 3
  · rw [sems_of] at e8
    refine ⟨_, e8, by simp, fun k h1 h2 => ?_⟩
    simp only [List.getElem_map]
    exact track_says secs _
  · unfold Report.val
    rw [names_of]
    exact (by decide +kernel : (["MajorBrand", "MinorVersion", "CompatibleBrands", "FastStart", "Timescale", "Duration", "DurationSeconds", "Tracks"].map
      fun k => Str.runes (Str.lit k)).Nodup)

theorem report_fine {secs : Nat → Nat → Str.Text} (hs : Numeric secs) {r : Report} (h : r.finite = true) : Fine (r.val secs) := by
  unfold Report.finite at h
  simp only [Bool.and_eq_true, bne_iff_ne, ne_eq, List.all_eq_true] at h
  unfold Report.val
  rw [Fine]
  refine finef_of _ fun m hm => ?_
  simp only [List.mem_cons, List.not_mem_nil, or_false] at hm
  rcases hm with rfl | rfl | rfl | rfl | rfl | rfl | rfl | rfl
  case inr.inr.inl =>
    rw [Fine]
    refine fines_of _ fun v hv => ?_
    obtain ⟨b, -, rfl⟩ := List.mem_map.1 hv
    rw [Fine] <;> simp
  case inr.inr.inr.inr.inr.inr.inl => rw [Fine]; exact hs _ _ h.1
  case inr.inr.inr.inr.inr.inr.inr =>
    rw [Fine]
    refine fines_of _ fun v hv => ?_
    obtain ⟨t, ht, rfl⟩ := List.mem_map.1 hv
    exact track_fine hs (h.2 t ht)
  all_goals rw [Fine] <;> simp

/-- **C85** — When `mp4tool probe` (with `-format json`, the default) has written its report, what it has written is the UTF-8 encoding of a JSON text (RFC 8259), whatever
bytes the brands in the file consist of, and this text describes the report: every field, the numbers exactly, the brands by their characters, the tracks
one by one and in order; numbers of a track that are zero are left out where the struct says `omitempty`.  The text of `DurationSeconds` is left open, up to
being a number. -/
theorem report_json (d : Bytes) (fuel : Nat) (short : Bool) {secs : Nat → Nat → Str.Text} (hs : Numeric secs) {pos p : Nat} {out : Str.Text}
    (h : probeText BoxMap.std d fuel short secs pos = (.ok out, p)) :
    ∃ r, probeJson BoxMap.std d fuel pos = (.ok r, p) ∧ (Str.runes out).flatMap Str.encodeRune = out ∧
      ∃ v, Json.parse (Str.runes out) = some v ∧ ReportSays secs v r := by
  unfold probeText at h
  obtain ⟨r, p1, e, h⟩ := bind_ok_inv h
  cases h
  have hfin : r.finite = true := by
    have h1 := ((json_printed _ _ _ _).1 e).2
    unfold Report.finite
    simp only [Bool.and_eq_true, bne_iff_ne, ne_eq, List.all_eq_true]
    exact h1
  have hp := parse_text short (r.val secs) (report_fine hs hfin)
  exact ⟨r, e, hp.2, _, hp.1, report_says secs r⟩

/-! ### Cases -/

/-- a text for all durations, for the examples -/
def twoSeconds : Nat → Nat → Str.Text := fun _ _ => Str.lit "2"

theorem twoSeconds_numeric : Numeric twoSeconds := fun _ _ _ => by
  unfold twoSeconds Json.IsNumber
  decide +kernel

example : ∃ out, probeText BoxMap.std reportFile 600 true twoSeconds 0 = (.ok out, 508) ∧ ∃ v, Json.parse (Str.runes out) = some v ∧ ReportSays twoSeconds v fileReport := by
  have hj : probeJson BoxMap.std reportFile 600 0 = (.ok fileReport, 508) := (json_printed 600 0 508 fileReport).2 ⟨reportFile_report, by decide, by decide⟩
  have e : probeText BoxMap.std reportFile 600 true twoSeconds 0 = (.ok (fileReport.json true twoSeconds), 508) := by
    unfold probeText
    rw [M.bind_ok hj]
    rfl
  obtain ⟨r, h1, -, h2⟩ := report_json reportFile 600 true twoSeconds_numeric e
  rw [hj] at h1
  cases h1
  exact ⟨_, e, h2⟩

/-- A report whose brands hold a quotation mark, a mark-up character, a control character and bytes that are no UTF-8. -/
def oddReport : Report := { majorBrand := [34, 60, 0, 0xff], minorVersion := 0, compatibleBrands := [], fastStart := true, timescale := 1, duration := 2, tracks := [] }

example : oddReport.json true twoSeconds = Str.lit "{\n  \"MajorBrand\": \"\\\"\\u003c\\u0000\\ufffd\",\n  \"MinorVersion\": 0,\n  \"CompatibleBrands\": [],\n  \"FastStart\": true,\n  \"Timescale\": 1,\n  \"Duration\": 2,\n  \"DurationSeconds\": 2,\n  \"Tracks\": []\n}\n" := by
  decide +kernel

example : (match Json.parse (Str.runes (oddReport.json true twoSeconds)) with | some v => (match v.get "MajorBrand" with | some (.str s) => decide (s = [34, 60, 0, 0xfffd]) | _ => false) | none => false) = true := by
  decide +kernel

/-- `reportFile` with a box of type `ftyp` behind it whose brand ends in this byte -/
def brandFile (b : BitVec 8) : Bytes := reportFile ++ [0, 0, 0, 16, 102, 116, 121, 112, 97, 98, 99, b, 0, 0, 0, 1]

/-- the report about it -/
def brandReport (b : Nat) : Report := { fileReport with majorBrand := [97, 98, 99, b], minorVersion := 1 }

theorem brandFile_report : buildReport BoxMap.std (brandFile 0xa0) 600 0 = (.ok (brandReport 0xa0), 508) ∧
    buildReport BoxMap.std (brandFile 0xb0) 600 0 = (.ok (brandReport 0xb0), 508) := by decide +kernel

/-- What is not written: the bytes of a brand that are not UTF-8.  Files of different brands are reported alike. -/
theorem json_brand_lossy : probeJson BoxMap.std (brandFile 0xa0) 600 0 = (.ok (brandReport 0xa0), 508) ∧
    probeJson BoxMap.std (brandFile 0xb0) 600 0 = (.ok (brandReport 0xb0), 508) ∧ (brandReport 0xa0).majorBrand ≠ (brandReport 0xb0).majorBrand ∧
    ∀ short secs, probeText BoxMap.std (brandFile 0xa0) 600 short secs 0 = probeText BoxMap.std (brandFile 0xb0) 600 short secs 0 := by
  have h1 := (json_printed 600 0 508 (brandReport 0xa0)).2 ⟨brandFile_report.1, by decide, by decide⟩
  have h2 := (json_printed 600 0 508 (brandReport 0xb0)).2 ⟨brandFile_report.2, by decide, by decide⟩
  refine ⟨h1, h2, by decide, fun short secs => ?_⟩
  unfold probeText
  rw [M.bind_ok h1, M.bind_ok h2]
  have hb : ∀ short, jsonChars short [97, 98, 99, 0xa0] = jsonChars short [97, 98, 99, 0xb0] := by decide +kernel
  have e : ∀ b, (brandReport b).json short secs = 123 :: (newLine 1 ++ Str.quoted (jsonChars short (Str.lit "MajorBrand")) ++ Str.lit ": " ++ Str.quoted (jsonChars short [97, 98, 99, b]) ++
      (GoFields.of [("MinorVersion", .uint 1), ("CompatibleBrands", .arr (.of [])), ("FastStart", .bool true), ("Timescale", .uint 1000), ("Duration", .uint 2000),
        ("DurationSeconds", .float (secs 2000 1000)), ("Tracks", .arr (.of [reportTrack.val secs]))]).text (jsonChars short) 1 ++ newLine 0 ++ [125]) ++ [10] := fun b => by
    unfold Report.json Report.val brandReport fileReport
    rw [GoFields.of, GoVal.text, GoVal.text]
    rfl
  rw [e, e, hb]

end Mp4.Props
