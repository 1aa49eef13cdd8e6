import Verif.Lemmas.Summary

/-!
# C78: the summary of a written file
-/

namespace Mp4.Props

open Mp4

theorem wf_reads (B : Boxes) (hok : B.Ok true true {}) (hlen : (B.ser true {}).length ≤ 2 ^ 48) :
    (B.forest true {} 0).WF (B.ser true {}) true [] {} 0 0 ∧ Reads (B.ser true {}) (B.fields true {} 0) := by
  obtain ⟨w1, w2, -⟩ := Boxes.wf_read hlen B true true {} [] [] [] 0 hok (by simp) (fun _ => rfl) (fun _ => rfl)
    (by simp) (.inl rfl)
  refine ⟨w1, fun x hx p0 => ?_⟩
  obtain ⟨n, hn, hle⟩ := w2 x hx
  refine ⟨n, x.1.offset + x.1.headerSize + n, ?_⟩
  unfold readPayloadP
  rw [M.bind_ok (seekToPayload_ok (show (B.ser true {}).length ≤ maxAlloc from hlen) hle p0)]
  exact hn

theorem probe_ser (B : Boxes) (hok : B.Ok true true {}) (hraw : B.Unknown true {}) (hlen : (B.ser true {}).length ≤ 2 ^ 48)
    (fuel : Nat) (hf : (B.forest true {} 0).count < fuel) (pos : Nat) :
    (probe BoxMap.std (B.ser true {}) fuel pos).1 = B.summary := by
  obtain ⟨hwf, hr⟩ := wf_reads B hok hlen
  have he := extract_exact_partial hlen _ hwf probePaths plain_probe.ne (plain_probe.leaves hraw) fuel hf pos
  unfold probe
  rw [M.bind_run]
  cases e : extractBoxes BoxMap.std (B.ser true {}) fuel none probePaths pos with
  | mk o p =>
  rw [e] at he
  simp only at he
  subst he
  simp only
  rw [boxes_probe B {} 0 hraw]
  have hs := summary_run hlen fuel B {} 0 0 hwf hraw hr rfl hf [] (false, {}) p
  rw [List.append_nil] at hs
  unfold Boxes.summary
  cases h : B.summaryFrom {} 0 (false, {}) with
  | ok s =>
    rw [h] at hs
    obtain ⟨p', e'⟩ := hs
    rw [e']
    rfl
  | err e => rw [h] at hs; exact hs
  | panic => rw [h] at hs; exact hs
  | hang => rw [h] at hs; exact hs

/-- **C78** — Every row of boxes as in C29, written by `StartBox`, `Marshal` and `EndBox`: `Probe` of the file gives the summary of the boxes.
That is: brands and minor version of the last `ftyp` at the root; `FastStart` if no `mdat` at the root is before the last `moov`; time scale and
duration of the last `mvhd` in a `moov`; for each `trak` in a `moov`, in file order, the track made from the fields written at the paths of C53 below it; for
each `moof` at the root, in file order, the segment made from the fields written at the paths of C54 below it, with its true offset.  Other boxes, wherever they
are, their sizes and header forms make no difference; if a track or a segment cannot be made from its boxes, `Probe` fails with the error of the first
of these. -/
theorem probe_written (B : Boxes) (hok : B.Ok true true {}) (hraw : B.Unknown true {}) (hlen : (B.ser true {}).length ≤ 2 ^ 48)
    (fuel : Nat) (hf : (B.forest true {} 0).count < fuel) (pos : Nat) :
    ∃ rs s', runOps noFaults (B.tree true {}).ops (WrSt.new ⟨[], 0, 0⟩) = (.ok rs, s') ∧ s'.stack = [] ∧
      (probe BoxMap.std s'.file.data fuel pos).1 = B.summary := by
  obtain ⟨rs, s', h1, h2, h3⟩ := writes_boxes B hok hlen
  exact ⟨rs, s', h1, h3, by rw [h2]; exact probe_ser B hok hraw hlen fuel hf pos⟩

/-! ## A movie that meets the conditions -/

/-- proves that there is only one definition for a type -/
macro "only_def" : tactic => `(tactic| (
  refine std_def (by decide +kernel) ?_
  unfold Cat.allDefs
  simp only [List.forall_mem_cons]
  repeat' apply And.intro
  all_goals first
    | (intro _; rfl)
    | (intro _; trivial)
    | (intro h; exact absurd h (by decide))
    | (intro x hx; exact absurd hx (by simp))))

/-- a box with the header form the writer chooses by itself -/
def plainBox (t : BoxType) (bd : BoxDef) (sv : SV) (kids rest : Boxes) : Boxes := .box { type := t } bd sv kids rest

/-- An `ftyp` that names `isom`. -/
def isoFtyp : SV := [("MajorBrand", .arr [.uint 0x69, .uint 0x73, .uint 0x6f, .uint 0x6d]), ("MinorVersion", .uint 1),
  ("CompatibleBrands", .slice [.struct [("CompatibleBrand", .arr [.uint 0x69, .uint 0x73, .uint 0x6f, .uint 0x6d])]])]

/-- `mvhd` with time scale 1000 -/
def thousand : SV := SV.set Cat.bdMvhd.fields.zero "Timescale" (.uint 1000)

/-- `tfhd` of track 7 -/
def seventh : SV := SV.set Cat.bdTfhd.fields.zero "TrackID" (.uint 7)

/-- `ftyp`, `moov` with `mvhd` and a box of unknown type -/
def initBoxes : Boxes :=
  plainBox tFtyp Cat.bdFtyp isoFtyp .nil
    (plainBox tMoov Cat.bdMoov [] (plainBox tMvhd Cat.bdMvhd thousand .nil (.raw { type := ⟨0x78, 0x78, 0x78, 0x78⟩ } [1, 2, 3] .nil)) .nil)

/-- `moof` with `traf` with `tfhd`, and `mdat` -/
def mediaBoxes : Boxes :=
  plainBox tMoof Cat.bdMoof [] (plainBox tTraf Cat.bdTraf [] (plainBox tTfhd Cat.bdTfhd seventh .nil .nil) .nil)
    (plainBox tMdat Cat.bdMdat [("Data", .slice [.uint 1, .uint 2])] .nil .nil)

theorem initBoxes_ok : initBoxes.Ok true false {} ∧ initBoxes.Unknown true {} := by
  refine ⟨⟨by decide +kernel, by decide, std_ftyp_def _, by decide +kernel, trivial,
    by decide +kernel, by decide, by only_def, by decide +kernel,
    ⟨by decide +kernel, by decide, std_mvhd_def _, by decide +kernel, trivial, by decide, by decide, by decide, by decide, trivial⟩, trivial⟩,
    ⟨trivial, ⟨trivial, by decide +kernel, trivial⟩, trivial⟩⟩

theorem mediaBoxes_ok : mediaBoxes.Ok true false {} ∧ mediaBoxes.Unknown true {} := by
  refine ⟨⟨by decide +kernel, by decide, by only_def, by decide +kernel,
    ⟨by decide +kernel, by decide, by only_def, by decide +kernel,
      ⟨by decide +kernel, by decide, by only_def, by decide +kernel, trivial, trivial⟩, trivial⟩,
    by decide +kernel, by decide, by only_def, by decide +kernel, trivial, trivial⟩,
    ⟨⟨⟨trivial, trivial⟩, trivial⟩, trivial, trivial⟩⟩

example : initBoxes.summary = .ok { majorBrand := [0x69, 0x73, 0x6f, 0x6d], minorVersion := 1, compatibleBrands := [[0x69, 0x73, 0x6f, 0x6d]], fastStart := true, timescale := 1000 } := by decide +kernel
example : (mediaBoxes.summary) = .ok { segments := [{ trackID := 7, moofOffset := 0, defaultSampleDuration := 0 }] } := by decide +kernel
example : (probe BoxMap.std (mediaBoxes.ser true {}) 9 0).1 = mediaBoxes.summary :=
  probe_ser mediaBoxes (Boxes.ok_mono _ _ _ _ mediaBoxes_ok.1) mediaBoxes_ok.2 (by decide +kernel) 9 (by decide +kernel) 0

end Mp4.Props
