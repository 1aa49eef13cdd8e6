import Verif.Spec.ExtractBoxes
import Verif.Props.Summary

/-!
# C89: what `mp4tool extract` gives of a written file
-/

namespace Mp4.ExtractBoxes

open Mp4 Mp4.Tool Mp4.Props

variable {d : Bytes}

theorem understood : ∀ (B : Boxes) (isRoot : Bool) (ctx : Ctx) (pos : Nat), B.Unknown isRoot ctx → Bare B →
    Understood d (B.forest isRoot ctx pos)
  | .nil, _, _, _, _, _ => trivial
  | .raw start p rest, isRoot, ctx, pos, hu, hb => ⟨.inl hu.1, understood rest isRoot ctx _ hu.2 hb⟩
  | .box start bd sv kids rest, isRoot, ctx, pos, hu, hb => by
    refine ⟨?_, understood kids _ _ _ hu.1 hb.2.1, understood rest _ _ _ hu.2 hb.2.2⟩
    intro h
    have hk : kids = .nil := hb.1 h.2
    rw [hk]; rfl

/-- the bytes of the boxes of a type, of a part of the file -/
def pick (d : Bytes) (t : BoxType) (l : List (Option BoxInfo × List BoxType × BoxInfo)) : Bytes :=
  (l.filter (fun x => x.2.2.type = t)).flatMap (fun x => rawBytes d x.2.2)

theorem pick_cons (t : BoxType) (x : Option BoxInfo × List BoxType × BoxInfo) (l : List (Option BoxInfo × List BoxType × BoxInfo)) :
    pick d t (x :: l) = (if x.2.2.type = t then rawBytes d x.2.2 else []) ++ pick d t l := by
  unfold pick
  by_cases h : x.2.2.type = t <;> simp [h]

theorem pick_append (t : BoxType) (k l : List (Option BoxInfo × List BoxType × BoxInfo)) : pick d t (k ++ l) = pick d t k ++ pick d t l := by
  simp [pick]

theorem raw_at {pre a post : Bytes} (h : d = pre ++ a ++ post) {bi : BoxInfo} (ho : bi.offset = pre.length) (hs : bi.size = a.length) :
    rawBytes d bi = a := by
  unfold rawBytes
  rw [ho, hs, h]
  simp

theorem pick_images (t : BoxType) : ∀ (B : Boxes) (isRoot : Bool) (ctx : Ctx) (parent : Option BoxInfo) (path : List BoxType) (pre post : Bytes),
    d = pre ++ B.ser isRoot ctx ++ post → pick d t ((B.forest isRoot ctx pre.length).boxes parent path) = images t B isRoot ctx
  | .nil, _, _, _, _, _, _, _ => rfl
  | .raw start p rest, isRoot, ctx, parent, path, pre, post, h => by
    have hl := Form.header_length (Form.of start) start.type ((Form.of start).len + p.length)
    simp only [Boxes.ser] at h
    have e := raw_at (bi := Boxes.info start pre.length ((Form.of start).len + p.length) ctx) (d := d)
      (pre := pre) (a := (Form.of start).header start.type ((Form.of start).len + p.length) ++ p) (post := rest.ser isRoot ctx ++ post)
      (by rw [h]; simp) rfl (by rw [List.length_append, hl]; rfl)
    have ih := pick_images t rest isRoot ctx parent path (pre ++ ((Form.of start).header start.type ((Form.of start).len + p.length) ++ p)) post (by rw [h]; simp)
    rw [List.length_append, List.length_append, hl] at ih
    simp only [Boxes.forest, Forest.boxes, images, Boxes.ser, List.append_nil]
    rw [pick_cons, ih, e]
    rfl
  | .box start bd sv kids rest, isRoot, ctx, parent, path, pre, post, h => by
    simp only [Boxes.ser] at h
    simp only [Boxes.forest, Forest.boxes, images, Boxes.ser, List.append_nil]
    generalize bitsBytes (Spec.layout bd (Boxes.ownCtx isRoot ctx start.type sv) sv) = f at *
    have hl := Form.header_length (Form.of start) start.type ((Form.of start).len + (f ++ kids.ser false (Boxes.kidsCtx isRoot ctx start sv)).length)
    rw [pick_cons, pick_append]
    have e := raw_at (d := d) (bi := Boxes.info start pre.length ((Form.of start).len + (f.length + (kids.ser false (Boxes.kidsCtx isRoot ctx start sv)).length)) (Boxes.ownCtx isRoot ctx start.type sv))
      (pre := pre) (a := (Form.of start).header start.type ((Form.of start).len + (f ++ kids.ser false (Boxes.kidsCtx isRoot ctx start sv)).length) ++ (f ++ kids.ser false (Boxes.kidsCtx isRoot ctx start sv)))
      (post := rest.ser isRoot (Boxes.restCtx isRoot ctx start sv) ++ post)
      (by rw [h]; simp) rfl (by rw [List.length_append, hl, List.length_append]; rfl)
    have ihk := pick_images t kids false (Boxes.kidsCtx isRoot ctx start sv) (some (Boxes.info start pre.length ((Form.of start).len + (f.length + (kids.ser false (Boxes.kidsCtx isRoot ctx start sv)).length)) (Boxes.ownCtx isRoot ctx start.type sv)))
      (path ++ [start.type]) (pre ++ (Form.of start).header start.type ((Form.of start).len + (f ++ kids.ser false (Boxes.kidsCtx isRoot ctx start sv)).length) ++ f) (rest.ser isRoot (Boxes.restCtx isRoot ctx start sv) ++ post) (by rw [h]; simp)
    have ih := pick_images t rest isRoot (Boxes.restCtx isRoot ctx start sv) parent path (pre ++ ((Form.of start).header start.type ((Form.of start).len + (f ++ kids.ser false (Boxes.kidsCtx isRoot ctx start sv)).length) ++ (f ++ kids.ser false (Boxes.kidsCtx isRoot ctx start sv)))) post (by rw [h]; simp)
    rw [List.length_append, List.length_append, hl] at ihk
    rw [List.length_append, List.length_append, hl, List.length_append] at ih
    rw [← ih, ← ihk, e, List.append_assoc]
    rfl

/-! ## What was extracted is a file -/

theorem own_root {t : BoxType} {sv : SV} (hk : t ≠ tKeys) (hq : ¬ (t = tFtyp ∧ (ftypBrands sv).has brandQT = true)) : Boxes.ownCtx true {} t sv = {} := by
  unfold Boxes.ownCtx
  rw [if_neg (fun h => hq h.2), if_neg hk]

theorem rest_root {start : BoxInfo} {sv : SV} (hk : start.type ≠ tKeys) (hq : ¬ (start.type = tFtyp ∧ (ftypBrands sv).has brandQT = true)) :
    Boxes.restCtx true {} start sv = {} := by
  unfold Boxes.restCtx nextCtx
  rw [own_root hk hq]
  have hk' : (Boxes.info start 0 0 {}).type ≠ tKeys := hk
  rw [if_neg hk']
  rfl

theorem images_without {t : BoxType} : ∀ (B : Boxes) (isRoot : Bool) (ctx : Ctx), Without t B → images t B isRoot ctx = []
  | .nil, _, _, _ => rfl
  | .raw start p rest, isRoot, ctx, h => by
    simp only [images, if_neg h.1, images_without rest isRoot ctx h.2, List.append_nil]
  | .box start bd sv kids rest, isRoot, ctx, h => by
    simp only [images, if_neg h.1, images_without kids _ _ h.2.1, images_without rest _ _ h.2.2, List.append_nil]

theorem sift_ser {t : BoxType} : ∀ (B : Boxes), TopOnly t B → (sift t B).ser true {} = images t B true {}
  | .nil, _ => rfl
  | .raw start p rest, h => by
    have ih := sift_ser rest h
    simp only [sift, images]
    by_cases ht : start.type = t
    · rw [if_pos ht, if_pos ht]
      simp only [Boxes.ser, ih, List.append_nil]
    · rw [if_neg ht, if_neg ht, ih]; rfl
  | .box start bd sv kids rest, h => by
    obtain ⟨hk, hq, hw, h⟩ := h
    have ih := sift_ser rest h
    simp only [sift, images]
    rw [images_without kids _ _ hw, rest_root hk hq, List.append_nil]
    by_cases ht : start.type = t
    · rw [if_pos ht, if_pos ht]
      simp only [Boxes.ser, rest_root hk hq, ih, List.append_nil]
    · rw [if_neg ht, if_neg ht, ih]; rfl

theorem sift_nil {t : BoxType} {B : Boxes} (h : B.isNil = true) : (sift t B).isNil = true := by
  cases B <;> first | rfl | cases h

theorem sift_ok {t : BoxType} : ∀ (B : Boxes), TopOnly t B → B.Ok true true {} → B.Unknown true {} → (sift t B).Ok true true {} ∧ (sift t B).Unknown true {}
  | .nil, _, _, _ => ⟨trivial, trivial⟩
  | .raw start p rest, h, hok, hu => by
    obtain ⟨h1, h2, h3, h4, h5⟩ := hok
    have ih := sift_ok rest h h5 hu.2
    simp only [sift]
    by_cases ht : start.type = t
    · rw [if_pos ht]
      exact ⟨⟨h1, fun h => ⟨rfl, sift_nil (h2 h).2⟩, h3, h4, ih.1⟩, hu.1, ih.2⟩
    · rw [if_neg ht]; exact ih
  | .box start bd sv kids rest, h, hok, hu => by
    obtain ⟨hk, hq, hw, h⟩ := h
    obtain ⟨h1, h2, h3, h4, h5, h6⟩ := hok
    rw [rest_root hk hq] at h6
    have hu2 := hu.2
    rw [rest_root hk hq] at hu2
    have ih := sift_ok rest h h6 hu2
    simp only [sift]
    by_cases ht : start.type = t
    · rw [if_pos ht]
      refine ⟨⟨h1, fun h => ⟨rfl, sift_nil (h2 h).2⟩, h3, h4, ?_, by rw [rest_root hk hq]; exact ih.1⟩, hu.1, by rw [rest_root hk hq]; exact ih.2⟩
      cases hn : rest.isNil with
      | true => rw [hn] at h5; rw [sift_nil hn]; exact h5
      | false => rw [hn] at h5; exact Boxes.ok_mono _ _ _ _ h5
    · rw [if_neg ht]; exact ih

theorem sift_shorter (t : BoxType) : ∀ (B : Boxes), TopOnly t B → ((sift t B).ser true {}).length ≤ (B.ser true {}).length
  | .nil, _ => Nat.le_refl _
  | .raw start p rest, h => by
    have ih := sift_shorter t rest h
    simp only [sift]
    by_cases ht : start.type = t
    · rw [if_pos ht]; simp only [Boxes.ser, List.length_append]; omega
    · rw [if_neg ht]; simp only [Boxes.ser, List.length_append]; omega
  | .box start bd sv kids rest, h => by
    obtain ⟨hk, hq, hw, h⟩ := h
    have ih := sift_shorter t rest h
    simp only [sift]
    by_cases ht : start.type = t
    · rw [if_pos ht]; simp only [Boxes.ser, List.length_append, rest_root hk hq]; omega
    · rw [if_neg ht]; simp only [Boxes.ser, List.length_append, rest_root hk hq]; omega

theorem movie_over : ∀ (K : Boxes) (i i' j : ProbeInfo), K.movie i = .ok i' → K.movie (movieOf i j) = .ok (movieOf i' j)
  | .nil, i, i', j, h => by cases h; rfl
  | .raw _ _ rest, i, i', j, h => movie_over rest i i' j h
  | .box start bd sv kids rest, i, i', j, h => by
    simp only [Boxes.movie] at h ⊢
    by_cases h1 : start.type = tMvhd
    · rw [if_pos h1] at h ⊢
      exact movie_over rest _ _ j h
    · rw [if_neg h1] at h ⊢
      by_cases h2 : start.type = tTrak
      · rw [if_pos h2] at h ⊢
        cases ht : kids.track with
        | ok tr => rw [ht] at h; exact movie_over rest _ _ j h
        | err e => rw [ht] at h; cases h
        | panic => rw [ht] at h; cases h
        | hang => rw [ht] at h; cases h
      · rw [if_neg h2] at h ⊢
        exact movie_over rest _ _ j h

theorem moov_ne : tMoov ≠ tFtyp ∧ tMoov ≠ tMoof ∧ tMoov ≠ tMdat := by decide

theorem summaryOne_other {t : BoxType} {sv : SV} {kids : Boxes} {o : Nat} {s s' : Bool × ProbeInfo} (ht : t ≠ tMoov)
    (h : Boxes.summaryOne t sv kids o s = .ok s') (j : ProbeInfo) : movieOf s'.2 j = movieOf s.2 j := by
  unfold Boxes.summaryOne at h
  by_cases h1 : t = tFtyp
  · rw [if_pos h1] at h; cases h; rfl
  rw [if_neg h1, if_neg ht] at h
  by_cases h2 : t = tMoof
  · rw [if_pos h2] at h
    cases hs : kids.segment o with
    | ok x => rw [hs] at h; cases h; rfl
    | err e => rw [hs] at h; cases h
    | panic => rw [hs] at h; cases h
    | hang => rw [hs] at h; cases h
  rw [if_neg h2] at h
  by_cases h3 : t = tMdat
  · rw [if_pos h3] at h; cases h; rfl
  · rw [if_neg h3] at h; cases h; rfl

theorem sift_summary : ∀ (B : Boxes) (pos pos' : Nat) (s s' : Bool × ProbeInfo) (j : ProbeInfo), TopOnly tMoov B → B.Unknown true {} →
    B.summaryFrom {} pos s = .ok s' →
    (sift tMoov B).summaryFrom {} pos' (false, movieOf s.2 j) =
      .ok (false, movieOf s'.2 { j with fastStart := has tMoov B || j.fastStart })
  | .nil, pos, pos', s, s', j, _, _, h => by cases h; rfl
  | .raw start p rest, pos, pos', s, s', j, ht, hu, h => by
    have hne : start.type ≠ tMoov := fun e => by
      have := plain_known (t := tMoov) (by decide +kernel) {}
      rw [← e, hu.1] at this; cases this
    rw [sift, if_neg hne]
    simp only [has, hne, decide_false, Bool.false_or]
    exact sift_summary rest _ pos' s s' j ht hu.2 h
  | .box start bd sv kids rest, pos, pos', s, s', j, ⟨hk, hq, hw, ht⟩, hu, h => by
    have hu2 := hu.2
    rw [rest_root hk hq] at hu2
    simp only [Boxes.summaryFrom, rest_root hk hq] at h
    cases h1 : Boxes.summaryOne start.type sv kids pos s with
    | err e => rw [h1] at h; cases h
    | panic => rw [h1] at h; cases h
    | hang => rw [h1] at h; cases h
    | ok s1 =>
      rw [h1] at h
      by_cases hm : start.type = tMoov
      · rw [sift, if_pos hm]
        simp only [has, hm, decide_true, Bool.true_or]
        rw [hm] at h1
        unfold Boxes.summaryOne at h1
        rw [if_neg moov_ne.1, if_pos rfl] at h1
        cases h2 : kids.movie { s.2 with fastStart := !s.1 } with
        | err e => rw [h2] at h1; cases h1
        | panic => rw [h2] at h1; cases h1
        | hang => rw [h2] at h1; cases h1
        | ok i1 =>
          rw [h2] at h1
          cases h1
          have hm1 := movie_over kids _ _ { j with fastStart := true } h2
          simp only [Boxes.summaryFrom]
          have e1 : Boxes.summaryOne start.type sv kids pos' (false, movieOf s.2 j) = .ok (false, movieOf i1 { j with fastStart := true }) := by
            rw [hm]
            unfold Boxes.summaryOne
            rw [if_neg moov_ne.1, if_pos rfl]
            exact (congrArg (fun x => Boxes.andThen x _) hm1).trans rfl
          rw [e1, rest_root hk hq]
          have ih := sift_summary rest _ (pos' + ((Form.of start).len + ((bitsBytes (Spec.layout bd (Boxes.ownCtx true {} start.type sv) sv)).length +
            (kids.ser false (Boxes.kidsCtx true {} start sv)).length))) _ _ { j with fastStart := true } ht hu2 h
          simp only [Bool.or_true] at ih
          exact ih
      · rw [sift, if_neg hm]
        simp only [has, hm, decide_false, Bool.false_or]
        have ih := sift_summary rest _ pos' _ _ j ht hu2 h
        rw [summaryOne_other hm h1 j] at ih
        exact ih

end Mp4.ExtractBoxes

namespace Mp4.Props

open Mp4 Mp4.Tool Mp4.ExtractBoxes

/-- **C89** — Every row of boxes as in C29, written by `StartBox`, `Marshal` and `EndBox`: `mp4tool extract` of a type gives the boxes of that type, each with its header,
fields and children as they were written, one after the other. -/
theorem extract_written (B : Boxes) (hok : B.Ok true true {}) (hraw : B.Unknown true {}) (hlen : (B.ser true {}).length ≤ 2 ^ 48) (hb : Bare B)
    (t : BoxType) (fuel : Nat) (hf : (B.forest true {} 0).count < fuel) :
    ∃ rs s', runOps noFaults (B.tree true {}).ops (WrSt.new ⟨[], 0, 0⟩) = (.ok rs, s') ∧ s'.stack = [] ∧
      extract s'.file.data t fuel = (.ok (), images t B true {}) := by
  obtain ⟨rs, s', h1, h2, h3⟩ := writes_boxes B hok hlen
  obtain ⟨hwf, -⟩ := wf_reads B hok hlen
  refine ⟨rs, s', h1, h3, ?_⟩
  rw [h2, extract_tool_writes hlen _ hwf (understood B true {} 0 hraw hb) t fuel hf]
  exact congrArg _ (pick_images t B true {} none [] [] [] (by simp))

/-- **C89**, what was extracted — If the boxes of the type are at the root only, and the file is no QuickTime file, then what `mp4tool extract` prints is the file that
has these boxes and no others. -/
theorem extract_is_file (B : Boxes) (hok : B.Ok true true {}) (hraw : B.Unknown true {}) (hlen : (B.ser true {}).length ≤ 2 ^ 48) (hb : Bare B)
    (t : BoxType) (ht : TopOnly t B) (fuel : Nat) (hf : (B.forest true {} 0).count < fuel) :
    extract (B.ser true {}) t fuel = (.ok (), (sift t B).ser true {}) ∧ (sift t B).Ok true true {} ∧ (sift t B).Unknown true {} := by
  obtain ⟨rs, s', h1, h2, h3⟩ := writes_boxes B hok hlen
  obtain ⟨rs', s'', h1', -, h3'⟩ := extract_written B hok hraw hlen hb t fuel hf
  rw [h1] at h1'
  cases h1'
  rw [h2] at h3'
  exact ⟨by rw [h3', sift_ser B ht], sift_ok B ht hok hraw⟩

/-- **C89**, the movie alone — `mp4tool extract moov` of such a file, given to `Probe`: time scale, duration and tracks are those that `Probe` finds in the whole file.
There are no brands and no segments. -/
theorem extract_then_probe (B : Boxes) (hok : B.Ok true true {}) (hraw : B.Unknown true {}) (hlen : (B.ser true {}).length ≤ 2 ^ 48) (hb : Bare B)
    (ht : TopOnly tMoov B) (fuel : Nat) (hf : (B.forest true {} 0).count < fuel) (pos : Nat) (info : ProbeInfo)
    (hp : (probe BoxMap.std (B.ser true {}) fuel pos).1 = .ok info) :
    ∃ out, extract (B.ser true {}) tMoov fuel = (.ok (), out) ∧ ∀ fuel' pos', ((sift tMoov B).forest true {} 0).count < fuel' →
      (probe BoxMap.std out fuel' pos').1 =
        .ok { timescale := info.timescale, duration := info.duration, tracks := info.tracks, fastStart := has tMoov B } := by
  obtain ⟨h1, h2, h3⟩ := extract_is_file B hok hraw hlen hb tMoov ht fuel hf
  refine ⟨_, h1, fun fuel' pos' hf' => ?_⟩
  have hlen' : ((sift tMoov B).ser true {}).length ≤ 2 ^ 48 := Nat.le_trans (sift_shorter tMoov B ht) hlen
  rw [probe_ser _ h2 h3 hlen' fuel' hf' pos']
  rw [probe_ser B hok hraw hlen fuel hf pos] at hp
  unfold Boxes.summary at hp ⊢
  cases hs : B.summaryFrom {} 0 (false, {}) with
  | err e => rw [hs] at hp; cases hp
  | panic => rw [hs] at hp; cases hp
  | hang => rw [hs] at hp; cases hp
  | ok s =>
    rw [hs] at hp
    cases hp
    have := sift_summary B 0 0 _ _ {} ht hraw hs
    simp only [Bool.or_false] at this
    exact (congrArg (fun x => Boxes.andThen x _) this).trans rfl

/-! ## A file that meets the conditions -/

theorem initBoxes_tables : ExtractBoxes.Bare initBoxes :=
  ⟨fun _ => rfl, trivial, fun h => absurd h (by decide +kernel), ⟨fun _ => rfl, trivial, trivial⟩, trivial⟩

theorem initBoxes_top : TopOnly tMoov initBoxes :=
  ⟨by decide, by decide +kernel, trivial, by decide, by decide +kernel, ⟨by decide, trivial, by decide, trivial⟩, trivial⟩

example : ∃ out, extract (initBoxes.ser true {}) tMoov 9 = (.ok (), out) ∧ out.length = 127 ∧ (probe BoxMap.std out 9 0).1 =
    .ok { timescale := 1000, duration := 0, tracks := [], fastStart := true } := by
  obtain ⟨out, h1, h2⟩ := extract_then_probe initBoxes (Boxes.ok_mono _ _ _ _ initBoxes_ok.1) initBoxes_ok.2 (by decide +kernel) initBoxes_tables initBoxes_top 9
    (by decide +kernel) 0 _ ((probe_ser initBoxes (Boxes.ok_mono _ _ _ _ initBoxes_ok.1) initBoxes_ok.2 (by decide +kernel) 9 (by decide +kernel) 0).trans
      (show initBoxes.summary = .ok { majorBrand := [0x69, 0x73, 0x6f, 0x6d], minorVersion := 1, compatibleBrands := [[0x69, 0x73, 0x6f, 0x6d]], fastStart := true, timescale := 1000 } by decide +kernel))
  refine ⟨out, h1, ?_, h2 9 0 (by decide +kernel)⟩
  have e := (extract_is_file initBoxes (Boxes.ok_mono _ _ _ _ initBoxes_ok.1) initBoxes_ok.2 (by decide +kernel) initBoxes_tables tMoov initBoxes_top 9 (by decide +kernel)).1
  rw [h1] at e
  cases e
  decide +kernel

/-- boxes inside of others -/
example : images ⟨0x78, 0x78, 0x78, 0x78⟩ initBoxes true {} = [0, 0, 0, 11, 0x78, 0x78, 0x78, 0x78, 1, 2, 3] := by decide +kernel

/-- A QuickTime file: `ftyp`, and `moov` with a track whose `mp4a` entry has version 1, with the 16 bytes that QuickTime adds and `wave` with `esds`. -/
def quickTimeFile : Bytes := [0, 0, 0, 20, 102, 116, 121, 112, 113, 116, 32, 32, 0, 0, 0, 0, 113, 116, 32, 32, 0, 0, 1, 63, 109, 111, 111, 118, 0, 0, 1, 55, 116, 114,
  97, 107, 0, 0, 0, 92, 116, 107, 104, 100, 0, 0, 0, 0, 0, 0, 0, 0, 0, 0, 0, 0, 0, 0, 0, 3, 0, 0, 0, 0, 0, 0, 0, 0, 0, 0, 0, 0, 0, 0, 0, 0,
  0, 0, 0, 0, 0, 0, 0, 0, 0, 0, 0, 0, 0, 0, 0, 0, 0, 0, 0, 0, 0, 0, 0, 0, 0, 0, 0, 0, 0, 0, 0, 0, 0, 0, 0, 0, 0, 0, 0, 0, 0, 0, 0, 0, 0, 0,
  0, 0, 0, 0, 0, 0, 0, 0, 0, 211, 109, 100, 105, 97, 0, 0, 0, 32, 109, 100, 104, 100, 0, 0, 0, 0, 0, 0, 0, 0, 0, 0, 0, 0, 0, 0, 172, 68, 0,
  0, 0, 0, 0, 0, 0, 0, 0, 0, 0, 171, 109, 105, 110, 102, 0, 0, 0, 163, 115, 116, 98, 108, 0, 0, 0, 107, 115, 116, 115, 100, 0, 0, 0, 0, 0, 0,
  0, 1, 0, 0, 0, 91, 109, 112, 52, 97, 0, 0, 0, 0, 0, 0, 0, 1, 0, 1, 0, 0, 0, 0, 0, 0, 0, 2, 0, 16, 0, 0, 0, 0, 172, 68, 0, 0, 0, 0, 4, 0, 0,
  0, 0, 2, 0, 0, 0, 4, 0, 0, 0, 2, 0, 0, 0, 39, 119, 97, 118, 101, 0, 0, 0, 31, 101, 115, 100, 115, 0, 0, 0, 0, 4, 13, 64, 21, 0, 0, 0, 0, 0,
  0, 0, 0, 0, 0, 0, 5, 2, 19, 144, 0, 0, 0, 16, 115, 116, 116, 115, 0, 0, 0, 0, 0, 0, 0, 0, 0, 0, 0, 16, 115, 116, 115, 99, 0, 0, 0, 0, 0, 0,
  0, 0, 0, 0, 0, 16, 115, 116, 99, 111, 0, 0, 0, 0, 0, 0, 0, 0]

/-- Why QuickTime files are excluded: `Probe` reads this file, and fails on its `moov` box alone, since without `ftyp` the bytes that QuickTime adds to the
sample entry are taken for boxes. -/
theorem extract_quicktime :
    (match (probe BoxMap.std quickTimeFile 30 0).1 with
      | .ok i => decide (i.tracks.map (fun t => (t.trackID, t.codec, t.mp4a)) = [(3, .mp4a, some ⟨0x40, 2, 2⟩)])
      | _ => false) = true ∧
    extract quickTimeFile tMoov 30 = (.ok (), quickTimeFile.drop 20) ∧
    (probe BoxMap.std (quickTimeFile.drop 20) 30 0).1.isOk = false := by
  refine ⟨by decide +kernel, by decide +kernel, by decide +kernel⟩

end Mp4.Props
