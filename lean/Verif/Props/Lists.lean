import Verif.Lemmas.Rows
import Verif.Model.ValEq

/-!
# C13: entry counts

The table `Spec.countedLists` names every list of the library that has a count, the count, and when the list is part of the box.
-/

namespace Mp4.Props

open Mp4 Mp4.Spec

theorem goName_unique : ∀ l : List BoxDef, (l.map (·.goName)).Nodup → ∀ a ∈ l, ∀ b ∈ l, a.goName = b.goName → a = b
  | [], _, a, ha, _, _, _ => by simp at ha
  | x :: l, hnd, a, ha, b, hb, h => by
    simp only [List.map_cons, List.nodup_cons, List.mem_map, not_exists, not_and] at hnd
    rcases List.mem_cons.mp ha with rfl | ha <;> rcases List.mem_cons.mp hb with rfl | hb
    · rfl
    · exact absurd h.symm (hnd.1 b hb)
    · exact absurd h (hnd.1 a (by assumption))
    · exact goName_unique l hnd.2 a ha b hb h

theorem allDefs_goNames : (Cat.allDefs.map (·.goName)).Nodup := by decide +kernel

/-- **C13**, partial — After `Unmarshal` of any bytes into a box of any type that has a counted list has succeeded, the list (each of the
lists, if it is inside the elements of another one) has as many elements as its count says, unless the count is
2^32-1. (Missing: the count 2^32-1, which the library takes for "no count", see `count_sentinel_ignored`; the
roll distances of `sgpd`, whose count is not used, see `sgpd_roll_count_ignored`.) -/
theorem counts_match_partial (row : CountedList) (hrow : row ∈ countedLists) (bd : BoxDef) (hbd : bd ∈ Cat.allDefs)
    (hname : bd.goName = row.box) (d : Bytes) (hd : d.length ≤ 2 ^ 48) (pos : Nat) (hpos : pos ≤ d.length) (ctx : Ctx)
    (ps : Nat) (dst : SV) (hty : typedFields bd.fields dst = true) (n : Nat) (sv : SV) (pos' : Nat)
    (hu : unmarshalBox bd d ctx ps dst pos = (.ok (n, sv), pos')) :
    ∀ sub ∈ inside row.path sv, row.only sub = true →
      ∃ l, sub.get row.list = some (.slice l) ∧
        ((l.length : Int) + row.extra = number sub row.count ∨ number sub row.count = 2 ^ 32 - 1 + row.extra) := by
  obtain ⟨bd', hbd', hname', hfacts⟩ := rows_ok row hrow
  have hb := goName_unique _ allDefs_goNames bd hbd bd' hbd' (by rw [hname, hname'])
  subst hb
  intro sub hsub honly
  obtain ⟨c', fs', f, t, hpath, hm, hf, hrest⟩ := hfacts ctx sv
  have hpost := unmarshalBox_post hbd hd hpos ctx ps hty
  rw [hu] at hpost
  have htyped := hpost.2.2.2.1
  have hcounts : countsFields (env bd ctx sv) (some bd.cfo) bd.fields sv = true := by
    rcases unmarshalBox_sound hbd hd hty hpos hu with ⟨_, _, _, h⟩ | ⟨_, _, h, _⟩ <;> exact h
  obtain ⟨h1, _, h3, _⟩ := inside_counts hpath sv (fun _ => rfl) htyped hcounts sub hsub
  obtain ⟨hth, hlen⟩ := hrest sub h3 h1 honly
  obtain ⟨l, hl, hcnt, hle⟩ := list_counts hpath hm (fun _ => rfl) htyped hcounts hsub hth
  rw [hf] at hl
  refine ⟨l, hl, ?_⟩
  have hbig : ∀ k : Nat, k = lengthUnlimited → (k : Int) = 2 ^ 32 - 1 := by
    intro k hk; rw [hk]; decide
  have heq : ((tagOf (env bd ctx sv) c' sub f).length : Int) + row.extra = number sub row.count →
      (l.length : Int) + row.extra = number sub row.count ∨ number sub row.count = 2 ^ 32 - 1 + row.extra := by
    intro h
    rcases hcnt with hcnt | hcnt
    · right; rw [← h, hbig _ hcnt]
    · left; rw [hcnt]; exact h
  rcases hlen with hlen | ⟨hhook, hstr, hesds, hmeta, helem, hlen | hlen⟩
  · exact heq hlen
  · exfalso
    have h5 := hle hhook (fun x _ hx => helem x hx)
    have h6 : (layout bd ctx sv).length = 8 * n := by
      rcases unmarshalBox_exact_noStr hbd hstr hesds hd hty hpos hu with ⟨rfl, _⟩ | ⟨_, h, _⟩
      · simp [Cat.bdMeta] at hmeta
      · exact h
    have h7 : n ≤ d.length := by have := hpost.2.1; have := hpost.2.2.1; omega
    change l.length ≤ (layout bd ctx sv).length at h5
    generalize (tagOf (env bd ctx sv) c' sub f).length = z at *
    rcases hcnt with hcnt | hcnt
    · rw [hcnt] at hlen
      exact absurd hlen (by decide)
    · omega
  · exact heq hlen

/-- a `trun` box with two samples -/
def exTrunBytes : Bytes := [0#8, 0#8, 2#8, 0#8, 0#8, 0#8, 0#8, 2#8, 0#8, 0#8, 0#8, 5#8, 0#8, 0#8, 0#8, 6#8]

/-- `counts_match_partial` applies to a `trun` box with two entries, and to the entries inside `avcC` -/
example : (∃ row ∈ countedLists, row.box = "Trun" ∧ row.list = "Entries" ∧ row.count = "SampleCount") ∧
    Cat.bdTrun ∈ Cat.allDefs ∧
    (∃ sv, unmarshalBox Cat.bdTrun exTrunBytes {} 16 Cat.bdTrun.fields.zero 0 = (.ok (16, sv), 16) ∧
      number sv "SampleCount" = 2) := by
  refine ⟨⟨{ box := "Trun", list := "Entries", count := "SampleCount" }, by simp [countedLists], rfl, rfl, rfl⟩,
    by simp [Cat.allDefs],
    [("FullBox", fullBoxVal 0#8 0#8 2#8 0#8), ("SampleCount", .uint 2), ("DataOffset", .int 0), ("FirstSampleFlags", .uint 0),
      ("Entries", .slice [
        .struct [("SampleDuration", .uint 0), ("SampleSize", .uint 5), ("SampleFlags", .uint 0),
          ("SampleCompositionTimeOffsetV0", .uint 0), ("SampleCompositionTimeOffsetV1", .int 0)],
        .struct [("SampleDuration", .uint 0), ("SampleSize", .uint 6), ("SampleFlags", .uint 0),
          ("SampleCompositionTimeOffsetV0", .uint 0), ("SampleCompositionTimeOffsetV1", .int 0)]])],
    by decide +kernel, by decide⟩

/-- C13 is false for the count 2^32-1: `Unmarshal` accepts an `stco` box that announces 2^32-1 chunks and has one. -/
theorem count_sentinel_ignored :
    unmarshalBox Cat.bdStco [0#8, 0#8, 0#8, 0#8, 0xff#8, 0xff#8, 0xff#8, 0xff#8, 0#8, 0#8, 0#8, 7#8] {} 12
      Cat.bdStco.fields.zero 0 =
    (.ok (12, [("FullBox", fullBoxVal 0#8 0#8 0#8 0#8), ("EntryCount", .uint (2 ^ 32 - 1)),
      ("ChunkOffset", .slice [.uint 7])]), 12) := by decide +kernel

/-- C13 is false for the roll distances of `sgpd`: `Unmarshal` accepts five announced and one existing. -/
theorem sgpd_roll_count_ignored :
    unmarshalBox Cat.bdSgpd [1#8, 0#8, 0#8, 0#8, 0x72#8, 0x6f#8, 0x6c#8, 0x6c#8, 0#8, 0#8, 0#8, 2#8, 0#8, 0#8, 0#8, 5#8,
      0xff#8, 0xff#8] {} 18 Cat.bdSgpd.fields.zero 0 =
    (.ok (18, [("FullBox", fullBoxVal 1#8 0#8 0#8 0#8), ("GroupingType", .arr [.uint 0x72, .uint 0x6f, .uint 0x6c, .uint 0x6c]),
      ("DefaultLength", .uint 2), ("DefaultSampleDescriptionIndex", .uint 0), ("EntryCount", .uint 5),
      ("RollDistances", .slice [.int (-1)]), ("RollDistancesL", .slice []), ("AlternativeStartupEntries", .slice []),
      ("AlternativeStartupEntriesL", .slice []), ("VisualRandomAccessEntries", .slice []),
      ("VisualRandomAccessEntriesL", .slice []), ("TemporalLevelEntries", .slice []), ("TemporalLevelEntriesL", .slice []),
      ("Unsupported", .slice [])]), 18) := by decide +kernel

end Mp4.Props
