import Verif.Lemmas.EditTree

/-!
# C45: `mp4tool edit`

On a well-formed file (`Forest.WF`) in which every box that is kept is of an unknown type, or is an `mdat` box, or can be decoded and is
encoded as the library would do it, the command writes the boxes of the file without those to be dropped; sizes of the boxes around them are
those of what is left; nothing else changes but the decode times.

The claim is refuted for other files: see the end.
-/

namespace Mp4.Props

open Mp4 Mp4.Edit

variable {d : Bytes}

/-! ## the option `-drop` -/

/-- without a comma -/
def NoComma (s : Bytes) : Prop := 0x2c#8 ∉ s

theorem splitComma_plain {s : Bytes} (h : NoComma s) : splitComma s = [s] := by
  induction s with
  | nil => rfl
  | cons x s ih =>
    unfold NoComma at h ih
    simp only [List.mem_cons, not_or] at h
    rw [splitComma, if_neg (fun e => h.1 e.symm), ih h.2]

theorem splitComma_cons {s : Bytes} (h : NoComma s) (r : Bytes) : splitComma (s ++ 0x2c#8 :: r) = s :: splitComma r := by
  induction s with
  | nil => rw [List.nil_append, splitComma, if_pos rfl]
  | cons x s ih =>
    unfold NoComma at h ih
    simp only [List.mem_cons, not_or] at h
    rw [List.cons_append, splitComma, if_neg (fun e => h.1 e.symm), ih h.2]

theorem split_join : ∀ (a : Bytes) (l : List Bytes), (∀ s ∈ a :: l, NoComma s) → splitComma (joinComma (a :: l)) = a :: l
  | a, [], h => splitComma_plain (h a (by simp))
  | a, b :: l, h => by
    rw [joinComma, splitComma_cons (h a (by simp)), split_join b l (fun s hs => h s (by simp only [List.mem_cons] at hs ⊢; exact .inr hs))]

theorem toStr_ne_nil (t : BoxType) : t.toStr ≠ [] := by
  unfold BoxType.toStr
  split
  · unfold BoxType.bytes
    simp only [List.flatMap_cons]
    split <;> simp
  · simp

theorem drop_option {names : List Bytes} (hn : ∀ s ∈ names, NoComma s) (t : BoxType) :
    exists_ (splitComma (joinComma names)) t.toStr = decide (t.toStr ∈ names) := by
  match names, hn with
  | [], _ =>
    have : ([] : Bytes) ≠ t.toStr := fun h => toStr_ne_nil t h.symm
    simp [joinComma, splitComma, exists_, this]
  | a :: l, hn =>
    rw [split_join a l hn]
    unfold exists_
    rw [Bool.eq_iff_iff]
    simp only [List.any_eq_true, decide_eq_true_eq]
    exact ⟨fun ⟨x, h1, h2⟩ => h2 ▸ h1, fun h => ⟨_, h, rfl⟩⟩

/-! ## the output -/

/-- **C45** — On a well-formed file whose boxes, as far as they are not dropped, are editable, `mp4tool edit` succeeds, and the output file is
the row of the boxes that are not named by `-drop`, at every level, with headers of the same form and the new sizes; the payloads of `mdat` boxes and of
boxes of unknown type, and the fields of all other boxes, are as they were, except for the decode time in `tfdt` boxes, which is
the one given by `-base_media_decode_time`, in the width of the field.  Names are as mp4tool shows them (`BoxType.String`).
The value 2^64 - 1 of the time means that none is given. -/
theorem edit_partial (hd : d.length ≤ 2 ^ 48) (F : Forest) (hwf : F.WF d true [] {} 0 0) (time : Option Nat)
    (ht : ∀ t, time = some t → t < 2 ^ 64 - 1) (names : List Bytes) (hn : ∀ s ∈ names, NoComma s)
    (he : F.Editable d (fun t => t.toStr ∈ names)) (fuel : Nat) (hf : F.count < fuel) :
    editFile noFaults d (Config.ofOptions time (joinComma names)) fuel =
      (.ok (), F.edited d (fun t => t.toStr ∈ names) (newFields d time)) := by
  have hd' : d.length ≤ maxAlloc := hd
  obtain ⟨h1, h2, h3, h4⟩ := tree_edited hd' time ht (splitComma (joinComma names)) (fun t => t.toStr ∈ names) (drop_option hn)
    F true [] {} 0 0 hwf he
  have hb : 0 + F.bytes = d.length := by simpa using wf_bytes F true [] {} 0 0 hwf
  have hlen : (0 : Nat) + (editTree d (Config.ofOptions time (joinComma names)) F).ser.length < 2 ^ 63 := by
    unfold Config.ofOptions
    rw [h3]
    omega
  obtain ⟨calls, e⟩ := tree_ok (editTree d (Config.ofOptions time (joinComma names)) F) (WrSt.new ⟨[], 0, 0⟩) h2 hlen
  obtain ⟨vs, q, L, r⟩ := edit_run hd' noFaults (Config.ofOptions time (joinComma names)) F fuel none 0 true [] {}
    ⟨0, ⟨WrSt.new ⟨[], 0, 0⟩, none⟩, []⟩ _ _ hwf h1 hf (by decide) rfl e
  have e1 : (liftP (seekStartP 0) : TM Edit.St Unit Nat) ⟨0, ⟨WrSt.new ⟨[], 0, 0⟩, none⟩, []⟩ =
      (.ok 0, ⟨0, ⟨WrSt.new ⟨[], 0, 0⟩, none⟩, []⟩) := rfl
  have hr : readBoxStructure BoxMap.std d (handler noFaults d (Config.ofOptions time (joinComma names))) fuel ()
      ⟨0, ⟨WrSt.new ⟨[], 0, 0⟩, none⟩, []⟩ = _ := (M.bind_ok e1).trans r
  unfold editFile
  rw [hr]
  simp only [Prod.mk.injEq, true_and]
  show writeAt [] 0 _ = _
  rw [show (editTree d (Config.ofOptions time (joinComma names)) F).ser = _ from h3]
  simp [writeAt]

theorem take_add' (l : Bytes) (a b : Nat) : l.take (a + b) = l.take a ++ (l.drop a).take b := by
  rw [List.take_add]

/-- nothing is dropped, and nothing is changed -/
theorem edited_nothing (hd : d.length ≤ maxAlloc) (drop : BoxType → Prop) [DecidablePred drop] (hno : ∀ t, ¬ drop t) : ∀ (T : Forest) (isRoot : Bool) (path : List BoxType) (ctx : Ctx) (pos total : Nat),
    T.WF d isRoot path ctx pos total → T.Filled →
    T.edited d drop (newFields d none) = (d.drop pos).take T.bytes := by
  intro T
  induction T with
  | nil => intro _ _ _ _ _ _ _; simp [Forest.edited, Forest.bytes]
  | leaf bi rest ih =>
    intro isRoot path ctx pos total ⟨hp, hw⟩ hfl
    simp only [Forest.edited, Forest.bytes, hno, if_false]
    rw [ih _ _ _ _ _ hw hfl, take_add', List.drop_drop, boxBytes, hp.offset]
  | node bi n kids rest ihk ih =>
    intro isRoot path ctx pos total ⟨hp, hn, hwk, hw⟩ ⟨hf1, hf2, hf3⟩
    simp only [Forest.edited, Forest.bytes, hno, if_false]
    rw [ih _ _ _ _ _ hw hf3, take_add', List.drop_drop]
    congr 1
    by_cases hm : bi.type = ⟨0x6d, 0x64, 0x61, 0x74⟩
    · rw [if_pos hm, boxBytes, hp.offset]
    · rw [if_neg hm, ihk _ _ _ _ _ hwk hf2]
      obtain ⟨hh, hb⟩ := placed_header hd hp
      obtain ⟨g1, g2⟩ := header_written hb.iso
      have hin := hp.inFile
      have h0 := hp.offset
      have hlen : (newFields d none bi n ++ (d.drop (pos + bi.headerSize + n)).take kids.bytes).length = n + kids.bytes := by
        show (fieldBytes d bi n ++ _).length = _
        unfold fieldBytes
        simp only [List.length_append, List.length_take, List.length_drop]
        omega
      rw [hlen, g1, show bi.headerSize + (n + kids.bytes) = bi.size by omega, ← g2]
      show _ ++ (fieldBytes d bi n ++ _) = _
      unfold fieldBytes
      rw [h0, ← List.append_assoc, ← hf1, take_add', take_add', List.drop_drop, List.drop_drop, ← Nat.add_assoc]

/-- Without options the output is the input, if no box ends with bytes that do not belong to a child (which can only be in
QuickTime files). -/
theorem edit_nothing_partial (hd : d.length ≤ 2 ^ 48) (F : Forest) (hwf : F.WF d true [] {} 0 0)
    (he : F.Editable d (fun _ => False)) (hfl : F.Filled) (fuel : Nat) (hf : F.count < fuel) :
    editFile noFaults d (Config.ofOptions none []) fuel = (.ok (), d) := by
  have h := edit_partial hd F hwf none (by simp) [] (by simp) (by simpa using he) fuel hf
  have hb : 0 + F.bytes = d.length := by simpa using wf_bytes F true [] {} 0 0 hwf
  rw [edited_nothing hd _ (by simp) F true [] {} 0 0 hwf hfl] at h
  rw [show joinComma [] = [] from rfl] at h
  rw [h, List.drop_zero, List.take_of_length_le (by omega)]

/-- Boxes of types without strings other than `esds` have canonical fields whenever they can be decoded (for `meta`: in the ISO form). -/
theorem canonical_noStr (hd : d.length ≤ 2 ^ 48) {bi : BoxInfo} {n : Nat} (hin : bi.offset + bi.headerSize ≤ d.length) (bd : BoxDef)
    (hbd : BoxMap.std.getBoxDef bi.type bi.ctx = some bd) (he : bd.goName ≠ "Esds") (hs : bd.fields.hasStr = false)
    (hm : bd.goName = "Meta" → n ≠ 0) : Forest.Canonical d bi n := by
  intro box p hu
  have hmem : bd ∈ Cat.allDefs := std_mem hbd
  unfold BoxMap.unmarshalAny BoxMap.new at hu
  rw [hbd] at hu
  simp only at hu
  split at hu
  · rename_i m sv q hq
    cases hu
    exact reencode_noStr bd hmem he hs d hd _ hin bi.ctx _ _ (zero_typedFields bd.fields) _ sv _ hq hm []
  · cases hu
  · cases hu
  · cases hu

/-! ## a case -/

/-- the file of the example: `free`, `moof` with `traf` with `tfdt` and a box of unknown type, `mdat` -/
def editEx : Bytes := [0, 0, 0, 8, 0x66, 0x72, 0x65, 0x65,
  0, 0, 0, 44, 0x6d, 0x6f, 0x6f, 0x66,
  0, 0, 0, 36, 0x74, 0x72, 0x61, 0x66,
  0, 0, 0, 20, 0x74, 0x66, 0x64, 0x74, 1, 0, 0, 0, 0, 0, 0, 0, 0, 0, 0, 9,
  0, 0, 0, 8, 0x78, 0x78, 0x78, 0x78,
  0, 0, 0, 10, 0x6d, 0x64, 0x61, 0x74, 1, 2]

/-- its boxes -/
def editExForest : Forest :=
  .leaf ⟨0, 8, 8, ⟨0x66, 0x72, 0x65, 0x65⟩, false, {}⟩
    (.node ⟨8, 44, 8, ⟨0x6d, 0x6f, 0x6f, 0x66⟩, false, {}⟩ 0
      (.node ⟨16, 36, 8, ⟨0x74, 0x72, 0x61, 0x66⟩, false, {}⟩ 0
        (.node ⟨24, 20, 8, ⟨0x74, 0x66, 0x64, 0x74⟩, false, {}⟩ 12 .nil
          (.leaf ⟨44, 8, 8, ⟨0x78, 0x78, 0x78, 0x78⟩, false, {}⟩ .nil)) .nil)
      (.leaf ⟨52, 10, 8, ⟨0x6d, 0x64, 0x61, 0x74⟩, false, {}⟩ .nil))

theorem editEx_wf : editExForest.WF editEx true [] {} 0 0 :=
  ⟨⟨rfl, by decide +kernel, by decide, by decide, .inl rfl, ownCtx_plain rfl (by decide) (by decide)⟩,
   ⟨rfl, by decide +kernel, by decide, by decide, .inl rfl, ownCtx_plain rfl (by decide) (by decide)⟩,
   payloadN_of (by decide +kernel),
   ⟨⟨rfl, by decide +kernel, by decide, by decide, .inr (by decide), ownCtx_plain rfl (by decide) (by decide)⟩,
    payloadN_of (by decide +kernel),
    ⟨⟨rfl, by decide +kernel, by decide, by decide, .inr (by decide), ownCtx_plain rfl (by decide) (by decide)⟩,
     payloadN_of (by decide +kernel), .inl rfl,
     ⟨rfl, by decide +kernel, by decide, by decide, .inr (by decide), ownCtx_plain rfl (by decide) (by decide)⟩, .inl rfl⟩, .inl rfl⟩,
   ⟨rfl, by decide +kernel, by decide, by decide, .inl rfl, ownCtx_plain rfl (by decide) (by decide)⟩, rfl⟩

/-- `free` and `xxxx` -/
def editExNames : List Bytes := [[0x66, 0x72, 0x65, 0x65], [0x78, 0x78, 0x78, 0x78]]

set_option maxRecDepth 4000 in
theorem editEx_editable : editExForest.Editable editEx (fun t => t.toStr ∈ editExNames) :=
  ⟨fun h => absurd (by decide) h,
   fun _ _ => ⟨canonical_noStr (by decide) (by decide) Cat.bdMoof rfl (by decide) (by decide) (fun h => absurd h (by decide)),
    fun _ _ => ⟨canonical_noStr (by decide) (by decide) Cat.bdTraf rfl (by decide) (by decide) (fun h => absurd h (by decide)),
     fun _ _ => ⟨canonical_noStr (by decide) (by decide) Cat.bdTfdt rfl (by decide) (by decide) (fun h => absurd h (by decide)),
      trivial⟩,
     fun h => absurd (by decide) h, trivial⟩, trivial⟩,
   fun _ => .inl rfl, trivial⟩

/-- `mp4tool edit -drop free,xxxx -base_media_decode_time 258` -/
example : editFile noFaults editEx (Config.ofOptions (some 258) (joinComma editExNames)) 7 =
    (.ok (), [0, 0, 0, 36, 0x6d, 0x6f, 0x6f, 0x66, 0, 0, 0, 28, 0x74, 0x72, 0x61, 0x66,
      0, 0, 0, 20, 0x74, 0x66, 0x64, 0x74, 1, 0, 0, 0, 0, 0, 0, 0, 0, 0, 1, 2, 0, 0, 0, 10, 0x6d, 0x64, 0x61, 0x74, 1, 2]) := by
  rw [edit_partial (by decide) editExForest editEx_wf (some 258) (by intro t h; cases h; decide) editExNames (by unfold NoComma; decide)
    editEx_editable 7 (by decide)]
  decide +kernel

/-- nothing is changed without options -/
example : editFile noFaults smallFile (Config.ofOptions none []) 4 = (.ok (), smallFile) :=
  edit_nothing_partial (by decide) smallForest smallFile_wf
    ⟨fun _ _ => ⟨canonical_noStr (by decide) (by decide) Cat.bdMoov rfl (by decide) (by decide)
      (fun h => absurd h (by decide)), fun _ => .inr (by decide +kernel), trivial⟩, fun _ => .inr (by decide +kernel), trivial⟩
    ⟨rfl, trivial, trivial⟩ 4 (by decide)

/-! ## refutations -/

/-- Without options and on a well-formed QuickTime file, the four zero bytes with which a `udta` box ends there get lost (QuickTime File Format
specification, "User Data Atoms": the list of user data is optionally terminated by a 32-bit integer set to 0). -/
theorem edit_loses_terminator : ∃ d : Bytes, d.length = 40 ∧
    editFile noFaults d (Config.ofOptions none []) 5 =
      (.ok (), d.take 20 ++ [0, 0, 0, 16, 0x6d, 0x6f, 0x6f, 0x76, 0, 0, 0, 8, 0x75, 0x64, 0x74, 0x61]) :=
  ⟨[0, 0, 0, 20, 0x66, 0x74, 0x79, 0x70, 0x71, 0x74, 0x20, 0x20, 0, 0, 0, 0, 0x71, 0x74, 0x20, 0x20,
    0, 0, 0, 20, 0x6d, 0x6f, 0x6f, 0x76, 0, 0, 0, 12, 0x75, 0x64, 0x74, 0x61, 0, 0, 0, 0], by decide, by decide +kernel⟩

/-- A `meta` box in the QuickTime form gets the version and flags of the ISO form: without options the output differs from the input. -/
theorem edit_changes_meta : ∃ d : Bytes, d.length = 44 ∧
    editFile noFaults d (Config.ofOptions none []) 6 =
      (.ok (), d.take 20 ++ [0, 0, 0, 28, 0x6d, 0x6f, 0x6f, 0x76, 0, 0, 0, 20, 0x6d, 0x65, 0x74, 0x61, 0, 0, 0, 0,
        0, 0, 0, 8, 0x66, 0x72, 0x65, 0x65]) :=
  ⟨[0, 0, 0, 20, 0x66, 0x74, 0x79, 0x70, 0x71, 0x74, 0x20, 0x20, 0, 0, 0, 0, 0x71, 0x74, 0x20, 0x20,
    0, 0, 0, 24, 0x6d, 0x6f, 0x6f, 0x76, 0, 0, 0, 16, 0x6d, 0x65, 0x74, 0x61, 0, 0, 0, 8, 0x66, 0x72, 0x65, 0x65], by decide, by decide +kernel⟩

/-- A decode time that does not fit the 32 bits of a `tfdt` box of version 0 is cut off without an error: 2^32 becomes 0. -/
theorem edit_truncates_time : ∃ d : Bytes, d.length = 16 ∧
    editFile noFaults d (Config.ofOptions (some (2 ^ 32)) []) 3 = (.ok (), d.take 12 ++ [0, 0, 0, 0]) :=
  ⟨[0, 0, 0, 16, 0x74, 0x66, 0x64, 0x74, 0, 0, 0, 0, 0, 0, 0, 9], by decide, by decide +kernel⟩

/-- A box of a known type with a version that the library does not know makes the command fail, though nothing was to be done with it.  The header of
the box has been written. -/
theorem edit_fails_on_version : ∃ d : Bytes,
    editFile noFaults d (Config.ofOptions none []) 3 = (.err .unsupportedVersion, [0, 0, 0, 16, 0x74, 0x66, 0x64, 0x74]) :=
  ⟨[0, 0, 0, 16, 0x74, 0x66, 0x64, 0x74, 2, 0, 0, 0, 0, 0, 0, 9], by decide +kernel⟩

/-- Chunk offsets are not adapted: after a box before `mdat` was dropped, the `stco` box still says 16, where the sample `1 2` was, which
is at 8 now. -/
theorem edit_keeps_offsets : ∃ d : Bytes, (d.drop 16).take 2 = [1, 2] ∧
    editFile noFaults d (Config.ofOptions none [0x66, 0x72, 0x65, 0x65]) 5 =
      (.ok (), [0, 0, 0, 10, 0x6d, 0x64, 0x61, 0x74, 1, 2, 0, 0, 0, 20, 0x73, 0x74, 0x63, 0x6f, 0, 0, 0, 0, 0, 0, 0, 1, 0, 0, 0, 16]) :=
  ⟨[0, 0, 0, 8, 0x66, 0x72, 0x65, 0x65, 0, 0, 0, 10, 0x6d, 0x64, 0x61, 0x74, 1, 2,
    0, 0, 0, 20, 0x73, 0x74, 0x63, 0x6f, 0, 0, 0, 0, 0, 0, 0, 1, 0, 0, 0, 16], by decide, by decide +kernel⟩

end Mp4.Props
