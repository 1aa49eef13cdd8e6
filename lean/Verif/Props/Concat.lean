import Verif.Props.Summary

/-!
# C79: files behind one another
-/

namespace Mp4.Props

open Mp4

variable {S P V : Type}

theorem boxes_fields : ∀ (B : Boxes) (isRoot : Bool) (ctx : Ctx) (pos : Nat) (parent : Option BoxInfo) (path : List BoxType),
    B.Unknown isRoot ctx → ∀ x ∈ (B.forest isRoot ctx pos).boxes parent path, BoxMap.std.isSupported x.2.2.type x.2.2.ctx = true →
    ∃ bd sv, (x.2.2, bd, sv) ∈ B.fields isRoot ctx pos
  | .nil, _, _, _, _, _, _, x, hx, _ => by simp [Boxes.forest, Forest.boxes] at hx
  | .raw start p rest, isRoot, ctx, pos, parent, path, hu, x, hx, hs => by
    simp only [Boxes.forest, Forest.boxes, List.mem_cons] at hx
    rcases hx with rfl | hx
    · have hs : BoxMap.std.isSupported start.type ctx = true := hs
      rw [hu.1] at hs
      cases hs
    · exact boxes_fields rest _ _ _ _ _ hu.2 x hx hs
  | .box start bd sv kids rest, isRoot, ctx, pos, parent, path, hu, x, hx, hs => by
    simp only [Boxes.forest, Forest.boxes, List.mem_cons, List.mem_append] at hx
    simp only [Boxes.fields, List.mem_cons, List.mem_append]
    rcases hx with rfl | hx | hx
    · exact ⟨bd, sv, .inl rfl⟩
    · obtain ⟨b, s, h⟩ := boxes_fields kids _ _ _ _ _ hu.1 x hx hs
      exact ⟨b, s, .inr (.inl h)⟩
    · obtain ⟨b, s, h⟩ := boxes_fields rest _ _ _ _ _ hu.2 x hx hs
      exact ⟨b, s, .inr (.inr h)⟩

/-- Everything about the row `A`, then `B`. -/
theorem joined (A B : Boxes) (hA : A.Ok true false {}) (hn : A.Neutral) (hB : B.Ok true true {}) :
    (A.append B).Ok true true {} ∧ (A.append B).ser true {} = A.ser true {} ++ B.ser true {} ∧
    (A.append B).forest true {} 0 = (A.forest true {} 0).append ((B.forest true {} 0).later (A.ser true {}).length) ∧
    (A.append B).fields true {} 0 = A.fields true {} 0 ++ (B.fields true {} 0).map fun x => (x.1.later (A.ser true {}).length, x.2) := by
  have he := Boxes.endCtx_neutral A true {} hn
  refine ⟨Boxes.ok_append B A true true {} hA (by rw [he]; exact hB), ?_, ?_, ?_⟩
  · rw [Boxes.ser_append, he]
  · rw [Boxes.forest_append, he, Boxes.forest_later]
  · rw [Boxes.fields_append, he, Boxes.fields_later]

/-- **C79** — Two files, each a row of boxes as in C29 (an initialization segment and a media segment, say), one behind the other.  The first
has no box that says it goes on to the end of the file, no `ftyp` with the brand `qt  ` and no `keys` at the root.  Then
`ReadBoxStructure` of the whole, with a handler that expands every box of known type, succeeds and calls the handler as for the first
file, and then as for the second, with the same paths, sizes, header sizes and contexts, the offsets of boxes and parents later by the length
of the first; and `ReadPayload` of each box of known type gives what it gives in the file alone. -/
theorem concat_reads (A B : Boxes) (hA : A.Ok true false {}) (hn : A.Neutral) (hAu : A.Unknown true {}) (hB : B.Ok true true {})
    (hBu : B.Unknown true {}) (a b : Bytes) (ha : a = A.ser true {}) (hb : b = B.ser true {}) (hlen : (a ++ b).length ≤ 2 ^ 48)
    (note : Handle P → S → S) (sub : Handle P → P) (val : Handle P → List V → V) (p : P) (s : S) (pos fuel : Nat)
    (hf : (A.forest true {} 0).count + (B.forest true {} 0).count < fuel) :
    let h := walker note (fun h => BoxMap.std.isSupported h.info.type h.info.ctx) sub val
    let calls := fun d => enters (traverse d h fuel p s pos).2.log
    (∃ vs, (traverse (a ++ b) h fuel p s pos).1 = .ok vs) ∧
    calls (a ++ b) = calls a ++ (calls b).map (laterCall a.length) ∧
    (∀ x ∈ calls a, BoxMap.std.isSupported x.2.2.type x.2.2.ctx = true → ∃ v, ∀ p0, (∃ n p, readPayloadP BoxMap.std a x.2.2 p0 = (.ok (v, n), p)) ∧
      ∃ n p, readPayloadP BoxMap.std (a ++ b) x.2.2 p0 = (.ok (v, n), p)) ∧
    ∀ x ∈ calls b, BoxMap.std.isSupported x.2.2.type x.2.2.ctx = true → ∃ v, ∀ p0, (∃ n p, readPayloadP BoxMap.std b x.2.2 p0 = (.ok (v, n), p)) ∧
      ∃ n p, readPayloadP BoxMap.std (a ++ b) (x.2.2.later a.length) p0 = (.ok (v, n), p) := by
  obtain ⟨j1, j2, j3, j4⟩ := joined A B hA hn hB
  have he := Boxes.endCtx_neutral A true {} hn
  rw [← ha, ← hb] at j2
  rw [← ha] at j3 j4
  have hla : (A.ser true {}).length ≤ 2 ^ 48 := by rw [← ha]; rw [List.length_append] at hlen; omega
  have hlb : (B.ser true {}).length ≤ 2 ^ 48 := by rw [← hb]; rw [List.length_append] at hlen; omega
  have hlj : ((A.append B).ser true {}).length ≤ 2 ^ 48 := by rw [j2]; exact hlen
  obtain ⟨wa, ra⟩ := wf_reads A (Boxes.ok_mono _ _ _ _ hA) hla
  obtain ⟨wb, rb⟩ := wf_reads B hB hlb
  obtain ⟨wj, rj⟩ := wf_reads (A.append B) j1 hlj
  have va := visits_every_box_in_order hla _ wa (leaves_raw A true {} 0 [] hAu) note sub val p s pos fuel (by omega)
  have vb := visits_every_box_in_order hlb _ wb (leaves_raw B true {} 0 [] hBu) note sub val p s pos fuel (by omega)
  have vj := visits_every_box_in_order hlj _ wj
    (leaves_raw (A.append B) true {} 0 [] (Boxes.unknown_append B A true {} hAu (by rw [he]; exact hBu))) note sub val p s pos fuel
    (by rw [j3, Forest.count_append, Forest.count_later]; exact hf)
  rw [j2, j3] at vj
  rw [j2, j4] at rj
  rw [← ha] at va ra
  rw [← hb] at vb rb
  have hlat := Forest.boxes_later a.length (B.forest true {} 0) none []
  rw [Option.map_none] at hlat
  refine ⟨vj.1, ?_, fun x hx hs => ?_, fun x hx hs => ?_⟩
  · simp only
    rw [vj.2, va.2, vb.2, Forest.boxes_append, hlat]
  · simp only at hx
    rw [va.2] at hx
    obtain ⟨bd, sv, hm⟩ := boxes_fields A true {} 0 none [] hAu x hx hs
    exact ⟨⟨bd, x.2.2.type, sv⟩, fun p0 => ⟨ra _ hm p0, rj _ (List.mem_append.2 (.inl hm)) p0⟩⟩
  · simp only at hx
    rw [vb.2] at hx
    obtain ⟨bd, sv, hm⟩ := boxes_fields B true {} 0 none [] hBu x hx hs
    exact ⟨⟨bd, x.2.2.type, sv⟩, fun p0 => ⟨rb _ hm p0, rj _ (List.mem_append.2 (.inr (List.mem_map.2 ⟨_, hm, rfl⟩))) p0⟩⟩

/-- **C79**, extraction — `ExtractBoxes` of the whole gives the boxes it gives for the first file, and then those it gives for the second, later by the length of
the first.  (As in C25 no box of unknown type may be on the way to a box asked for.) -/
theorem concat_extract (A B : Boxes) (hA : A.Ok true false {}) (hn : A.Neutral) (hB : B.Ok true true {})
    (a b : Bytes) (ha : a = A.ser true {}) (hb : b = B.ser true {}) (hlen : (a ++ b).length ≤ 2 ^ 48) (paths : List (List BoxType))
    (hne : ∀ q ∈ paths, q ≠ []) (hlA : ∀ x ∈ leaves [] (A.forest true {} 0), ¬ AskedBelow paths x.1)
    (hlB : ∀ x ∈ leaves [] (B.forest true {} 0), ¬ AskedBelow paths x.1) (fuel : Nat)
    (hf : (A.forest true {} 0).count + (B.forest true {} 0).count < fuel) (pos : Nat) :
    ∃ la lb, (extractBoxes BoxMap.std a fuel none paths pos).1 = .ok (la, none) ∧
      (extractBoxes BoxMap.std b fuel none paths pos).1 = .ok (lb, none) ∧
      (extractBoxes BoxMap.std (a ++ b) fuel none paths pos).1 = .ok (la ++ lb.map (BoxInfo.later a.length), none) := by
  obtain ⟨j1, j2, j3, -⟩ := joined A B hA hn hB
  rw [← ha, ← hb] at j2
  rw [← ha] at j3
  have hla : (A.ser true {}).length ≤ 2 ^ 48 := by rw [← ha]; rw [List.length_append] at hlen; omega
  have hlb : (B.ser true {}).length ≤ 2 ^ 48 := by rw [← hb]; rw [List.length_append] at hlen; omega
  have hlj : ((A.append B).ser true {}).length ≤ 2 ^ 48 := by rw [j2]; exact hlen
  have wa := (wf_reads A (Boxes.ok_mono _ _ _ _ hA) hla).1
  have wb := (wf_reads B hB hlb).1
  have wj := (wf_reads (A.append B) j1 hlj).1
  rw [j3, j2] at wj
  have ea := extract_exact_partial hla _ wa paths hne hlA fuel (by omega) pos
  have eb := extract_exact_partial hlb _ wb paths hne hlB fuel (by omega) pos
  have ej := extract_exact_partial hlen _ wj paths hne (by
    intro x hx
    rw [Forest.leaves_append, List.mem_append] at hx
    rcases hx with hx | hx
    · exact hlA x hx
    · have := List.mem_map_of_mem (f := fun x : List BoxType × BoxInfo => x.1) hx
      rw [Forest.leaves_later] at this
      obtain ⟨y, hy, e⟩ := List.mem_map.1 this
      rw [← e]
      exact hlB y hy) fuel (by rw [Forest.count_append, Forest.count_later]; exact hf) pos
  rw [Forest.asked_append, Forest.asked_later] at ej
  rw [← ha] at ea
  rw [← hb] at eb
  exact ⟨_, _, ea, eb, ej⟩

/-! ## The summary -/

theorem summaryFrom_append (B : Boxes) : ∀ (A : Boxes) (ctx : Ctx) (pos : Nat) (s : Bool × ProbeInfo),
    (A.append B).summaryFrom ctx pos s =
      Boxes.andThen (A.summaryFrom ctx pos s) (B.summaryFrom (A.endCtx true ctx) (pos + (A.ser true ctx).length))
  | .nil, _, _, _ => rfl
  | .raw start p rest, ctx, pos, s => by
    simp only [Boxes.append, Boxes.summaryFrom, Boxes.endCtx, summaryFrom_append B rest, Boxes.ser_length_raw, Nat.add_assoc]
  | .box start bd sv kids rest, ctx, pos, s => by
    simp only [Boxes.append, Boxes.summaryFrom, Boxes.endCtx, Boxes.ser_length_box]
    rw [andThen_assoc]
    congr 1
    funext s'
    rw [summaryFrom_append B rest]
    simp only [Nat.add_assoc]

/-- No `ftyp` and no `moov` at the root: a media segment. -/
def Media : Boxes → Prop
  | .nil => True
  | .raw _ _ rest => Media rest
  | .box start _ _ _ rest => start.type ≠ tFtyp ∧ start.type ≠ Mp4.tMoov ∧ Media rest

/-- The segment, its `moof` box `k` bytes later. -/
def laterSegment (k : Nat) (s : Segment) : Segment := { s with moofOffset := s.moofOffset + k }

theorem segment_later (kids : Boxes) (offset k : Nat) :
    kids.segment (offset + k) = Boxes.andThen (kids.segment offset) fun s => .ok (laterSegment k s) := by
  unfold Boxes.segment
  cases collectFrag {} (kids.atPaths moofPaths) with
  | none => rfl
  | some f =>
    simp only
    unfold segmentOf
    cases f.tfhd with
    | none => rfl
    | some t => cases f.trun <;> rfl

/-- the segments of a media segment -/
def segmentsFrom : Boxes → Ctx → Nat → Out (List Segment)
  | .nil, _, _ => .ok []
  | .raw start p rest, ctx, pos => segmentsFrom rest ctx (pos + ((Form.of start).len + p.length))
  | .box start bd sv kids rest, ctx, pos =>
    let n := (bitsBytes (Spec.layout bd (Boxes.ownCtx true ctx start.type sv) sv)).length
    let body := kids.ser false (Boxes.kidsCtx true ctx start sv)
    Boxes.andThen (if start.type = tMoof then Boxes.andThen (kids.segment pos) fun s => .ok [s] else .ok []) fun l =>
      Boxes.andThen (segmentsFrom rest (Boxes.restCtx true ctx start sv) (pos + ((Form.of start).len + (n + body.length)))) fun l' => .ok (l ++ l')

theorem segmentsFrom_later (k : Nat) : ∀ (B : Boxes) (ctx : Ctx) (pos : Nat),
    segmentsFrom B ctx (pos + k) = Boxes.andThen (segmentsFrom B ctx pos) fun l => .ok (l.map (laterSegment k))
  | .nil, _, _ => rfl
  | .raw start p rest, ctx, pos => by
    simp only [segmentsFrom]
    rw [Nat.add_right_comm, segmentsFrom_later k rest]
  | .box start bd sv kids rest, ctx, pos => by
    simp only [segmentsFrom]
    rw [Nat.add_right_comm, segmentsFrom_later k rest, segment_later]
    generalize segmentsFrom rest _ _ = r
    split
    · cases kids.segment pos <;> cases r <;> rfl
    · cases r <;> rfl

theorem summary_media : ∀ (B : Boxes), Media B → ∀ (ctx : Ctx) (pos : Nat) (s : Bool × ProbeInfo), ∃ flag,
    B.summaryFrom ctx pos s = Boxes.andThen (segmentsFrom B ctx pos) fun l => .ok (flag, { s.2 with segments := s.2.segments ++ l })
  | .nil, _, _, _, s => ⟨s.1, by simp [Boxes.summaryFrom, segmentsFrom, Boxes.andThen]⟩
  | .raw start p rest, hm, ctx, pos, s => summary_media rest hm ctx _ s
  | .box start bd sv kids rest, hm, ctx, pos, s => by
    simp only [Boxes.summaryFrom, segmentsFrom, Boxes.summaryOne]
    rw [if_neg hm.1, if_neg hm.2.1]
    by_cases e3 : start.type = tMoof
    · rw [if_pos e3, if_pos e3]
      cases kids.segment pos with
      | ok x =>
        obtain ⟨flag, e⟩ := summary_media rest hm.2.2 (Boxes.restCtx true ctx start sv) (pos + ((Form.of start).len +
          ((bitsBytes (Spec.layout bd (Boxes.ownCtx true ctx start.type sv) sv)).length + (kids.ser false (Boxes.kidsCtx true ctx start sv)).length)))
          (s.1, { s.2 with segments := s.2.segments ++ [x] })
        refine ⟨flag, ?_⟩
        simp only [Boxes.andThen] at e ⊢
        rw [e]
        generalize segmentsFrom rest _ _ = r
        cases r <;> simp
      | err e => exact ⟨true, rfl⟩
      | panic => exact ⟨true, rfl⟩
      | hang => exact ⟨true, rfl⟩
    rw [if_neg e3, if_neg e3]
    by_cases e4 : start.type = tMdat
    · rw [if_pos e4]
      obtain ⟨flag, e⟩ := summary_media rest hm.2.2 (Boxes.restCtx true ctx start sv) (pos + ((Form.of start).len +
        ((bitsBytes (Spec.layout bd (Boxes.ownCtx true ctx start.type sv) sv)).length + (kids.ser false (Boxes.kidsCtx true ctx start sv)).length)))
        (true, s.2)
      refine ⟨flag, ?_⟩
      simp only [Boxes.andThen] at e ⊢
      rw [e]
      generalize segmentsFrom rest _ _ = r
      cases r <;> simp
    · rw [if_neg e4]
      obtain ⟨flag, e⟩ := summary_media rest hm.2.2 (Boxes.restCtx true ctx start sv) (pos + ((Form.of start).len +
        ((bitsBytes (Spec.layout bd (Boxes.ownCtx true ctx start.type sv) sv)).length + (kids.ser false (Boxes.kidsCtx true ctx start sv)).length)))
        s
      refine ⟨flag, ?_⟩
      simp only [Boxes.andThen] at e ⊢
      rw [e]
      generalize segmentsFrom rest _ _ = r
      cases r <;> simp

/-- **C79**, summary — A media segment (no `ftyp` and no `moov` at the root) behind a file: `Probe` gives what it gives for the first file, followed by the
segments it gives for the second, their `moof` offsets later by the length of the first; it fails if it fails for one of them, with the same error. -/
theorem concat_probe (A B : Boxes) (hA : A.Ok true false {}) (hn : A.Neutral) (hAu : A.Unknown true {}) (hB : B.Ok true true {})
    (hBu : B.Unknown true {}) (hm : Media B) (a b : Bytes) (ha : a = A.ser true {}) (hb : b = B.ser true {})
    (hlen : (a ++ b).length ≤ 2 ^ 48) (pos fuel : Nat) (hf : (A.forest true {} 0).count + (B.forest true {} 0).count < fuel) :
    (probe BoxMap.std (a ++ b) fuel pos).1 =
      match (probe BoxMap.std a fuel pos).1, (probe BoxMap.std b fuel pos).1 with
      | .ok i, .ok j => .ok { i with segments := i.segments ++ j.segments.map (laterSegment a.length) }
      | .ok _, r => r
      | r, _ => r := by
  obtain ⟨j1, j2, j3, -⟩ := joined A B hA hn hB
  have he := Boxes.endCtx_neutral A true {} hn
  rw [← ha, ← hb] at j2
  have hla : (A.ser true {}).length ≤ 2 ^ 48 := by rw [← ha]; rw [List.length_append] at hlen; omega
  have hlb : (B.ser true {}).length ≤ 2 ^ 48 := by rw [← hb]; rw [List.length_append] at hlen; omega
  have hlj : ((A.append B).ser true {}).length ≤ 2 ^ 48 := by rw [j2]; exact hlen
  have pa := probe_ser A (Boxes.ok_mono _ _ _ _ hA) hAu hla fuel (by omega) pos
  have pb := probe_ser B hB hBu hlb fuel (by omega) pos
  have pj := probe_ser (A.append B) j1 (Boxes.unknown_append B A true {} hAu (by rw [he]; exact hBu)) hlj fuel
    (by rw [j3, Forest.count_append, Forest.count_later]; exact hf) pos
  rw [j2] at pj
  rw [← ha] at pa
  rw [← hb] at pb
  rw [pa, pb, pj]
  unfold Boxes.summary
  rw [summaryFrom_append, he, andThen_assoc, ← ha]
  obtain ⟨f1, e1⟩ := summary_media B hm {} 0 (false, {})
  rw [e1]
  cases A.summaryFrom {} 0 (false, {}) with
  | err e => rfl
  | panic => rfl
  | hang => rfl
  | ok s =>
    simp only [Boxes.andThen]
    obtain ⟨f2, e2⟩ := summary_media B hm {} (0 + a.length) s
    rw [e2, segmentsFrom_later]
    cases segmentsFrom B {} 0 with
    | err e => rfl
    | panic => rfl
    | hang => rfl
    | ok l => simp [Boxes.andThen]

/-! ## Concrete files -/

example : initBoxes.Neutral ∧ Media mediaBoxes := by
  refine ⟨⟨by decide +kernel, by decide, ⟨by decide, by decide, trivial⟩⟩, by decide, by decide, by decide, by decide, trivial⟩

example : (probe BoxMap.std (initBoxes.ser true {} ++ mediaBoxes.ser true {}) 20 0).1 =
    .ok { majorBrand := [0x69, 0x73, 0x6f, 0x6d], minorVersion := 1, compatibleBrands := [[0x69, 0x73, 0x6f, 0x6d]], fastStart := true, timescale := 1000, segments := [{ trackID := 7, moofOffset := 147, defaultSampleDuration := 0 }] } := by decide +kernel

/-- Why the first file may not be a QuickTime file: behind an `ftyp` that names `qt  ` the same audio sample entry has QuickTime data, alone it has none. -/
theorem concat_quicktime_differs : ∃ a b : Bytes, ∃ bi bi' : BoxInfo,
    (extractBox BoxMap.std b 20 none [⟨0x6d, 0x70, 0x34, 0x61⟩] 0).1 = .ok ([bi], none) ∧
    (extractBox BoxMap.std (a ++ b) 20 none [⟨0x6d, 0x70, 0x34, 0x61⟩] 0).1 = .ok ([bi'], none) ∧ bi'.offset = bi.offset + a.length ∧
    (match readPayloadP BoxMap.std b bi 0 with
      | (.ok (v, _), _) => (match v.sv.get "QuickTimeData" with | some (.slice l) => l.length == 0 | _ => false)
      | _ => false) = true ∧
    (match readPayloadP BoxMap.std (a ++ b) bi' 0 with
      | (.ok (v, _), _) => (match v.sv.get "QuickTimeData" with | some (.slice l) => l.length == 16 | _ => false)
      | _ => false) = true := by
  refine ⟨qtAudioFile.take 20, qtAudioFile.drop 20, ⟨0, 52, 8, ⟨0x6d, 0x70, 0x34, 0x61⟩, false, {}⟩,
    ⟨20, 52, 8, ⟨0x6d, 0x70, 0x34, 0x61⟩, false, { isQuickTimeCompatible := true }⟩, ?_, ?_, ?_, ?_, ?_⟩ <;> decide +kernel

/-- Why no box of the first file may say that it goes on to the end of the file: it takes in the second file. -/
theorem concat_to_end_swallows : ∃ a b : Bytes,
    (extractBox BoxMap.std a 20 none [⟨0, 0, 0, 0⟩] 0).1 = .ok ([⟨0, 8, 8, ⟨0x66, 0x72, 0x65, 0x65⟩, true, {}⟩], none) ∧
    (extractBox BoxMap.std b 20 none [⟨0, 0, 0, 0⟩] 0).1 = .ok ([⟨0, 8, 8, Mp4.tMoov, false, {}⟩], none) ∧
    (extractBox BoxMap.std (a ++ b) 20 none [⟨0, 0, 0, 0⟩] 0).1 = .ok ([⟨0, 16, 8, ⟨0x66, 0x72, 0x65, 0x65⟩, true, {}⟩], none) := by
  refine ⟨[0, 0, 0, 0, 102, 114, 101, 101], [0, 0, 0, 8, 109, 111, 111, 118], ?_, ?_, ?_⟩ <;> decide +kernel

end Mp4.Props
