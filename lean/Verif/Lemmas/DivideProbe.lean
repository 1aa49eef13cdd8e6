import Verif.Lemmas.DivideBoxes
import Verif.Props.Concat

/-!
# Lemmas on the summaries of what `mp4tool divide` writes
-/

namespace Mp4.DivideBoxes

open Mp4.Props Mp4.Tool Boxes

variable {d : Bytes} {fuel : Nat}

/-! ## The outputs can be written, and are not larger -/

/-- number of boxes -/
def num : Boxes → Nat
  | .nil => 0
  | .raw _ _ rest => 1 + num rest
  | .box _ _ _ kids rest => 1 + num kids + num rest

theorem count_eq : ∀ (B : Boxes) (isRoot : Bool) (ctx : Ctx) (pos : Nat), (B.forest isRoot ctx pos).count = num B
  | .nil, _, _, _ => rfl
  | .raw start p rest, isRoot, ctx, pos => by simp only [Boxes.forest, Forest.count, num, count_eq rest]
  | .box start bd sv kids rest, isRoot, ctx, pos => by simp only [Boxes.forest, Forest.count, num, count_eq rest, count_eq kids]

theorem isNil_init {id : Nat} {B : Boxes} (h : B.isNil = true) : (B.initOf id).isNil = true := by
  cases B with
  | nil => rfl
  | _ => cases h

theorem init_ok {id : Nat} : ∀ (B : Boxes) (isRoot last last' : Bool) (ctx : Ctx), (last = true → last' = true) → Exp B → B.Ok isRoot last ctx →
    (B.initOf id).Ok isRoot last' ctx ∧ ((B.initOf id).ser isRoot ctx).length ≤ (B.ser isRoot ctx).length
  | .nil, _, _, _, _, _, _, _ => ⟨trivial, Nat.le_refl _⟩
  | .raw _ _ _, _, _, _, _, _, he, _ => he.elim
  | .box start bd sv kids rest, isRoot, last, last', ctx, h, he, ⟨h1, h2, h3, h4, h5, h6⟩ => by
    obtain ⟨e1, e2, e3, e4, e5⟩ := he
    obtain ⟨a, b⟩ := init_ok (id := id) rest isRoot last last' _ h e5 h6
    rw [initOf]
    split
    · next hm =>
      obtain ⟨c, e⟩ := init_ok (id := id) kids false (last && rest.isNil) (last' && (rest.initOf id).isNil) _ (fun e => by
        rw [Bool.and_eq_true] at e ⊢
        exact ⟨h e.1, isNil_init e.2⟩) (e4 hm) h5
      refine ⟨⟨fun e' => ?_, fun e => ⟨h (h2 e).1, isNil_init (h2 e).2⟩, h3, fitsIn_shrink (std_mem h3) h4 (by omega) (by omega), c, a⟩, ?_⟩
      · have := h1 e'
        omega
      · simp only [ser_length_box]
        omega
    · split
      · refine ⟨⟨h1, fun e => ⟨h (h2 e).1, isNil_init (h2 e).2⟩, h3, h4, ?_, a⟩, ?_⟩
        · refine Ok_last kids _ _ _ _ (fun e => ?_) h5
          rw [Bool.and_eq_true] at e ⊢
          exact ⟨h e.1, isNil_init e.2⟩
        · simp only [ser_length_box]
          omega
      · next hB =>
        obtain ⟨n1, n2⟩ := dropped e1 hB
        rw [rest_same n1 n2] at a b
        refine ⟨a, ?_⟩
        simp only [ser_length_box, rest_same n1 n2]
        omega

theorem init_unknown {id : Nat} : ∀ (B : Boxes) (isRoot : Bool) (ctx : Ctx), Exp B → B.Unknown isRoot ctx → (B.initOf id).Unknown isRoot ctx
  | .nil, _, _, _, _ => trivial
  | .raw _ _ _, _, _, he, _ => he.elim
  | .box start bd sv kids rest, isRoot, ctx, he, hu => by
    obtain ⟨e1, e2, e3, e4, e5⟩ := he
    have hr := init_unknown (id := id) rest isRoot _ e5 hu.2
    rw [initOf]
    split
    · next hm => exact ⟨init_unknown (id := id) kids false _ (e4 hm) hu.1, hr⟩
    · split
      · exact ⟨hu.1, hr⟩
      · next hB =>
        obtain ⟨n1, n2⟩ := dropped e1 hB
        rw [rest_same n1 n2] at hr
        exact hr

theorem init_neutral {id : Nat} : ∀ (B : Boxes), B.Neutral → (B.initOf id).Neutral
  | .nil, _ => trivial
  | .raw _ _ rest, h => init_neutral rest h
  | .box start bd sv kids rest, ⟨h1, h2, h3⟩ => by
    have hr := init_neutral (id := id) rest h3
    rw [initOf]
    split
    · exact ⟨h1, h2, hr⟩
    · split
      · exact ⟨h1, h2, hr⟩
      · exact hr

theorem init_num {id : Nat} : ∀ B : Boxes, num (B.initOf id) ≤ num B
  | .nil => Nat.le_refl _
  | .raw _ _ rest => by
    have := init_num (id := id) rest
    simp only [initOf, num]
    omega
  | .box start bd sv kids rest => by
    have h1 := init_num (id := id) rest
    have h2 := init_num (id := id) kids
    rw [initOf]
    split
    · simp only [num]; omega
    · split
      · simp only [num]; omega
      · simp only [num]; omega

/-- a row of `moof` and `mdat` boxes -/
def MediaOnly : Boxes → Prop
  | .nil => True
  | .raw _ _ _ => False
  | .box start _ _ _ rest => (start.type = fourcc "moof" ∨ start.type = fourcc "mdat") ∧ MediaOnly rest

theorem media_neutral : ∀ B : Boxes, MediaOnly B → B.Neutral
  | .nil, _ => trivial
  | .raw _ _ _, h => h.elim
  | .box start bd sv kids rest, h => by
    refine ⟨fun e => ?_, fun e => ?_, media_neutral rest h.2⟩
    · rcases h.1 with h1 | h1
      · rw [e.1] at h1; exact absurd h1 (by decide)
      · rw [e.1] at h1; exact absurd h1 (by decide)
    · rcases h.1 with h1 | h1
      · rw [e] at h1; exact absurd h1 (by decide)
      · rw [e] at h1; exact absurd h1 (by decide)

theorem media_media : ∀ B : Boxes, MediaOnly B → Media B
  | .nil, _ => trivial
  | .raw _ _ _, h => h.elim
  | .box start bd sv kids rest, h => by
    refine ⟨fun e => ?_, fun e => ?_, media_media rest h.2⟩
    · rcases h.1 with h1 | h1
      · rw [e] at h1; exact absurd h1 (by decide)
      · rw [e] at h1; exact absurd h1 (by decide)
    · rcases h.1 with h1 | h1
      · rw [e] at h1; exact absurd h1 (by decide)
      · rw [e] at h1; exact absurd h1 (by decide)

theorem media_append : ∀ A B : Boxes, MediaOnly A → MediaOnly B → MediaOnly (A.append B)
  | .nil, _, _, hB => hB
  | .raw _ _ _, _, h, _ => h.elim
  | .box _ _ _ _ rest, B, h, hB => ⟨h.1, media_append rest B h.2 hB⟩

theorem mdats_facts : ∀ B : Boxes, Exp B → B.Neutral → B.Ok true false {} → B.Unknown true {} →
    B.mdats.Ok true false {} ∧ B.mdats.Unknown true {} ∧ MediaOnly B.mdats
  | .nil, _, _, _, _ => ⟨trivial, trivial, trivial⟩
  | .raw _ _ _, he, _, _, _ => he.elim
  | .box start bd sv kids rest, he, hn, ⟨h1, h2, h3, h4, h5, h6⟩, hu => by
    obtain ⟨n1, n2⟩ := rest_neutral (isRoot := true) (ctx := {}) hn
    have hu2 := hu.2
    rw [n1] at h6 hu2
    have hr := mdats_facts rest he.2.2.2.2 n2 h6 hu2
    rw [mdats]
    split
    · exact ⟨trivial, trivial, trivial⟩
    · split
      · next e =>
        refine ⟨⟨h1, fun e => absurd (h2 e).1 (by decide), h3, h4, h5, ?_⟩, ⟨hu.1, ?_⟩, .inr e, hr.2.2⟩
        · rw [n1]; exact hr.1
        · rw [n1]; exact hr.2.1
      · exact hr

/-- one behind the other -/
def joinAll : List Boxes → Boxes
  | [] => .nil
  | B :: l => B.append (joinAll l)

theorem segments_facts {id : Nat} : ∀ B : Boxes, Exp B → B.Neutral → B.Ok true false {} → B.Unknown true {} →
    ∀ S ∈ B.segmentsOf id, S.Ok true false {} ∧ S.Unknown true {} ∧ MediaOnly S
  | .nil, _, _, _, _ => by simp [segmentsOf]
  | .raw _ _ _, he, _, _, _ => he.elim
  | .box start bd sv kids rest, he, hn, ⟨h1, h2, h3, h4, h5, h6⟩, hu => by
    obtain ⟨n1, n2⟩ := rest_neutral (isRoot := true) (ctx := {}) hn
    have hu2 := hu.2
    rw [n1] at h6 hu2
    have hr := segments_facts (id := id) rest he.2.2.2.2 n2 h6 hu2
    have hm := mdats_facts rest he.2.2.2.2 n2 h6 hu2
    rw [segmentsOf]
    split
    · next e =>
      refine List.forall_mem_cons.2 ⟨⟨⟨h1, fun e => absurd (h2 e).1 (by decide), h3, h4, h5, ?_⟩, ⟨hu.1, ?_⟩, .inl e.1, hm.2.2⟩, hr⟩
      · rw [n1]; exact hm.1
      · rw [n1]; exact hm.2.1
    · exact hr

theorem join_facts : ∀ l : List Boxes, (∀ S ∈ l, S.Ok true false {} ∧ S.Unknown true {} ∧ MediaOnly S) →
    (joinAll l).Ok true false {} ∧ (joinAll l).Unknown true {} ∧ MediaOnly (joinAll l) ∧
    (joinAll l).ser true {} = (l.map (·.ser true {})).flatten
  | [], _ => ⟨trivial, trivial, trivial, rfl⟩
  | S :: l, h => by
    obtain ⟨hS, hl⟩ := List.forall_mem_cons.1 h
    obtain ⟨a, b, c, e⟩ := join_facts l hl
    have hn := endCtx_neutral S true {} (media_neutral S hS.2.2)
    refine ⟨ok_append _ _ _ _ _ hS.1 (by rw [hn]; exact a), unknown_append _ _ _ _ hS.2.1 (by rw [hn]; exact b), media_append _ _ hS.2.2 c, ?_⟩
    rw [joinAll, ser_append, hn, e]
    rfl

theorem num_append : ∀ A B : Boxes, num (A.append B) = num A + num B
  | .nil, _ => by simp [Boxes.append, num]
  | .raw _ _ rest, B => by simp only [Boxes.append, num, num_append rest B]; omega
  | .box _ _ _ _ rest, B => by simp only [Boxes.append, num, num_append rest B]; omega

theorem num_all {id : Nat} : ∀ B : Boxes, num (B.initOf id) + num B.mdats + num (joinAll (B.segmentsOf id)) ≤ num B
  | .nil => Nat.le_refl _
  | .raw _ _ rest => by
    have := num_all (id := id) rest
    simp only [initOf, mdats, segmentsOf, num]
    omega
  | .box start bd sv kids rest => by
    have h := num_all (id := id) rest
    have hk := init_num (id := id) kids
    rw [initOf, mdats, segmentsOf]
    by_cases e1 : start.type = fourcc "moof"
    · have n1 : start.type ≠ fourcc "moov" := by rw [e1]; decide
      have n2 : start.type ∉ initNames.map fourcc := by rw [e1]; decide
      rw [if_neg n1, if_neg (fun h => n2 h.1), if_pos e1]
      split
      · simp only [joinAll, Boxes.append, num, num_append]; omega
      · simp only [num]; omega
    have e0 : ¬ (start.type = fourcc "moof" ∧ kids.idAt ["traf", "tfhd"] = some id) := fun h => e1 h.1
    rw [if_neg e1, if_neg e0]
    by_cases e2 : start.type = fourcc "mdat"
    · have n1 : start.type ≠ fourcc "moov" := by rw [e2]; decide
      have n2 : start.type ∉ initNames.map fourcc := by rw [e2]; decide
      rw [if_neg n1, if_neg (fun h => n2 h.1), if_pos e2]
      simp only [num]; omega
    rw [if_neg e2]
    split
    · simp only [num]; omega
    · split
      · simp only [num]; omega
      · simp only [num]; omega

theorem len_all {id : Nat} : ∀ B : Boxes, Exp B → B.Neutral → B.Ok true false {} →
    ((B.initOf id).ser true {}).length + (B.mdats.ser true {}).length + (((B.segmentsOf id).map (·.ser true {})).flatten).length ≤ (B.ser true {}).length
  | .nil, _, _, _ => Nat.le_refl _
  | .raw _ _ _, he, _, _ => he.elim
  | .box start bd sv kids rest, he, hn, ⟨h1, h2, h3, h4, h5, h6⟩ => by
    obtain ⟨n1, n2⟩ := rest_neutral (isRoot := true) (ctx := {}) hn
    rw [n1] at h6
    have h := len_all (id := id) rest he.2.2.2.2 n2 h6
    rw [initOf, mdats, segmentsOf]
    by_cases e1 : start.type = fourcc "moof"
    · have m1 : start.type ≠ fourcc "moov" := by rw [e1]; decide
      have m2 : start.type ∉ initNames.map fourcc := by rw [e1]; decide
      rw [if_neg m1, if_neg (fun h => m2 h.1), if_pos e1, ser_length_box, n1]
      split
      · rw [List.map_cons, List.flatten_cons, List.length_append, ser_length_box, n1]
        simp only [Boxes.ser, List.length_nil]; omega
      · simp only [Boxes.ser, List.length_nil]; omega
    have e0 : ¬ (start.type = fourcc "moof" ∧ kids.idAt ["traf", "tfhd"] = some id) := fun h => e1 h.1
    rw [if_neg e1, if_neg e0]
    by_cases e2 : start.type = fourcc "mdat"
    · have m1 : start.type ≠ fourcc "moov" := by rw [e2]; decide
      have m2 : start.type ∉ initNames.map fourcc := by rw [e2]; decide
      rw [if_neg m1, if_neg (fun h => m2 h.1), if_pos e2]
      simp only [ser_length_box, n1]; omega
    rw [if_neg e2]
    split
    · next hm =>
      have hk := (init_ok (id := id) kids false _ _ _ (fun e => e) (he.2.2.2.1 hm) h5).2
      simp only [ser_length_box, n1]; omega
    · split
      · simp only [ser_length_box, n1]; omega
      · simp only [ser_length_box, n1]; omega

/-! ## Track IDs -/

theorem inside_last : ∀ (B : Boxes) (path : List BoxType), ∀ x ∈ B.inside path, x.1.getLast? = some x.2.type
  | .nil, _ => by simp [inside]
  | .raw _ _ rest, path => inside_last rest path
  | .box start bd sv kids rest, path => by
    intro x hx
    simp only [inside, List.mem_cons, List.mem_append] at hx
    rcases hx with rfl | hx | hx
    · simp
    · exact inside_last kids _ x hx
    · exact inside_last rest _ x hx

/-- the boxes of one type are those at one path -/
theorem atPaths_type (kids : Boxes) {paths : List (List BoxType)} {q : List BoxType} {t : BoxType} (hq : q ∈ paths) (ht : q.getLast? = some t)
    (h : ∀ p ∈ paths, p.getLast? = some t → p = q) : ((kids.atPaths paths).filter fun x => x.1.type == t) = kids.atPaths [q] := by
  unfold atPaths
  rw [List.filter_map, List.filter_filter]
  congr 1
  refine List.filter_congr fun x hx => ?_
  have hl := inside_last kids [] x hx
  rw [Bool.eq_iff_iff]
  simp only [Function.comp, Bool.and_eq_true, beq_iff_eq, List.contains_iff_mem, List.mem_singleton]
  constructor
  · rintro ⟨h1, h2⟩
    exact h _ h2 (by rw [hl, h1])
  · rintro rfl
    rw [ht, Option.some.injEq] at hl
    exact ⟨hl.symm, hq⟩

theorem last_one {kids : Boxes} {paths : List (List BoxType)} {q : List String} {t : BoxType} (hq : q.map fourcc ∈ paths)
    (ht : (q.map fourcc).getLast? = some t) (h : ∀ p ∈ paths, p.getLast? = some t → p = q.map fourcc) {sv : SV}
    (hs : lastPayload (kids.atPaths paths) t = some sv) (hid : kids.idAt q ≠ none) : kids.idAt q = some (sv.uint "TrackID") := by
  unfold lastPayload at hs
  rw [atPaths_type kids hq ht h] at hs
  unfold idAt at hid ⊢
  generalize kids.atPaths [q.map fourcc] = l at hs hid
  match l, hs, hid with
  | [x], hs, _ =>
    simp only [List.getLast?_singleton, Option.map_some, Option.some.injEq] at hs
    simp only [hs]
  | [], hs, hid => simp at hid
  | _ :: _ :: _, hs, hid => simp at hid

theorem track_id {kids : Boxes} {t : Track} (h : kids.track = .ok t) (hid : kids.idAt ["tkhd"] ≠ none) : kids.idAt ["tkhd"] = some t.trackID := by
  unfold track at h
  split at h
  · next f hf =>
    obtain ⟨e1, -⟩ := collect_eq _ _ _ hf
    rw [Option.or_none] at e1
    unfold trackOf at h
    split at h
    · cases h
    · next sv hsv =>
      rw [hsv] at e1
      rw [last_one (paths := trakPaths) (t := tTkhd) (by decide) (by decide) (by decide) e1.symm hid]
      repeat' split at h
      all_goals first
        | cases h; done
        | (cases h; rfl)
  · cases h

theorem segment_id {kids : Boxes} {pos : Nat} {x : Segment} (h : kids.segment pos = .ok x) (hid : kids.idAt ["traf", "tfhd"] ≠ none) :
    kids.idAt ["traf", "tfhd"] = some x.trackID ∧ x.moofOffset = pos ∧ ∀ pos', kids.segment pos' = .ok { x with moofOffset := pos' } := by
  unfold segment at h ⊢
  split at h
  · next f hf =>
    obtain ⟨e1, -⟩ := collectFrag_eq _ _ _ hf
    rw [Option.or_none] at e1
    unfold segmentOf at h ⊢
    split at h
    · cases h
    · next sv hsv =>
      rw [hsv] at e1
      rw [last_one (paths := moofPaths) (t := tTfhd) (by decide) (by decide) (by decide) e1.symm hid]
      simp only [hsv]
      generalize f.tfdt = b at *
      generalize f.trun = c at *
      cases b <;> cases c <;> (cases h; exact ⟨rfl, rfl, fun _ => rfl⟩)
  · cases h

/-! ## The summary of the initialization segment -/

/-- only one track, no segments -/
def keep (id : Nat) (fast : Bool) (i : ProbeInfo) : ProbeInfo := { i with tracks := i.tracks.filter fun t => t.trackID == id, segments := [], fastStart := fast }

theorem andThen_inv {α β : Type} {x : Out α} {k : α → Out β} {b : β} (h : andThen x k = .ok b) : ∃ a, x = .ok a ∧ k a = .ok b := by
  cases x with
  | ok a => exact ⟨a, rfl, h⟩
  | err e => cases h
  | panic => cases h
  | hang => cases h

theorem movie_segments : ∀ (K : Boxes) (i j : ProbeInfo), K.movie i = .ok j → j.segments = i.segments
  | .nil, i, j, h => by cases h; rfl
  | .raw _ _ rest, i, j, h => movie_segments rest i j h
  | .box start bd sv kids rest, i, j, h => by
    simp only [movie] at h
    obtain ⟨a, h1, h2⟩ := andThen_inv h
    rw [movie_segments rest a j h2]
    split at h1
    · cases h1; rfl
    · split at h1
      · obtain ⟨t, h3, h4⟩ := andThen_inv h1
        cases h4; rfl
      · cases h1; rfl

theorem movie_init {id : Nat} {fast : Bool} : ∀ (K : Boxes) (i j : ProbeInfo), Exp K → K.movie i = .ok j →
    (K.initOf id).movie (keep id fast i) = .ok (keep id fast j)
  | .nil, i, j, _, h => by cases h; rfl
  | .raw _ _ rest, _, _, he, _ => he.elim
  | .box start bd sv kids rest, i, j, he, h => by
    obtain ⟨e1, e2, e3, e4, e5⟩ := he
    simp only [movie] at h
    obtain ⟨a, h1, h2⟩ := andThen_inv h
    have hr := movie_init (id := id) (fast := fast) rest a j e5 h2
    rw [initOf]
    by_cases m1 : start.type = tMvhd
    · rw [if_pos m1] at h1
      cases h1
      have n1 : start.type ≠ fourcc "moov" := by rw [m1]; decide
      have n2 : start.type ∈ initNames.map fourcc := by rw [m1]; decide
      have n3 : start.type ≠ fourcc "trak" := by rw [m1]; decide
      rw [if_neg n1, if_pos ⟨n2, fun e => absurd e n3⟩]
      simp only [movie]
      rw [if_pos m1]
      exact hr
    rw [if_neg m1] at h1
    by_cases m2 : start.type = tTrak
    · rw [if_pos m2] at h1
      obtain ⟨t, h3, h4⟩ := andThen_inv h1
      cases h4
      have n1 : start.type ≠ fourcc "moov" := by rw [m2]; decide
      have n2 : start.type ∈ initNames.map fourcc := by rw [m2]; decide
      have n3 : start.type = fourcc "trak" := by rw [m2]; decide
      have hid := track_id h3 (e2 n3)
      rw [if_neg n1]
      by_cases ht : t.trackID = id
      · rw [ht] at hid
        rw [if_pos ⟨n2, fun _ => hid⟩]
        simp only [movie]
        rw [if_neg m1, if_pos m2, h3]
        simp only [andThen]
        rw [← hr]
        congr 1
        unfold keep
        simp only [List.filter_append]
        rw [List.filter_cons_of_pos (by simpa using ht), List.filter_nil]
      · rw [if_neg (fun h => ht (by have := h.2 n3; rw [hid, Option.some.injEq] at this; exact this)), ← hr]
        congr 1
        unfold keep
        simp only [List.filter_append]
        rw [List.filter_cons_of_neg (by simpa using ht), List.filter_nil, List.append_nil]
    rw [if_neg m2] at h1
    cases h1
    split
    · simp only [movie]
      rw [if_neg m1, if_neg m2]
      exact hr
    · split
      · simp only [movie]
        rw [if_neg m1, if_neg m2]
        exact hr
      · exact hr

/-- is there a `moov`? -/
def hasMoov : Boxes → Bool
  | .nil => false
  | .raw _ _ rest => hasMoov rest
  | .box start _ _ _ rest => decide (start.type = fourcc "moov") || hasMoov rest

theorem summary_init {id : Nat} : ∀ (B : Boxes) (ctx ctx' : Ctx) (pos pos' : Nat) (s s' : Bool × ProbeInfo) (fast : Bool), Exp B →
    B.summaryFrom ctx pos s = .ok s' →
    (B.initOf id).summaryFrom ctx' pos' (false, keep id fast s.2) = .ok (false, keep id (fast || hasMoov B) s'.2)
  | .nil, _, _, _, _, s, s', fast, _, h => by cases h; simp [initOf, summaryFrom, hasMoov]
  | .raw _ _ rest, _, _, _, _, _, _, _, he, _ => he.elim
  | .box start bd sv kids rest, ctx, ctx', pos, pos', s, s', fast, he, h => by
    obtain ⟨e1, e2, e3, e4, e5⟩ := he
    simp only [summaryFrom] at h
    obtain ⟨a, h1, h2⟩ := andThen_inv h
    rw [initOf]
    unfold summaryOne at h1
    by_cases m1 : start.type = tFtyp
    · rw [if_pos m1] at h1
      cases h1
      have n1 : start.type ≠ fourcc "moov" := by rw [m1]; decide
      have n2 : start.type ∈ initNames.map fourcc := by rw [m1]; decide
      have n3 : start.type ≠ fourcc "trak" := by rw [m1]; decide
      rw [if_neg n1, if_pos ⟨n2, fun e => absurd e n3⟩]
      simp only [summaryFrom, hasMoov, n1, decide_false, Bool.false_or]
      unfold summaryOne
      rw [if_pos m1]
      exact summary_init rest _ _ _ _ _ _ _ e5 h2
    rw [if_neg m1] at h1
    by_cases m2 : start.type = Mp4.tMoov
    · rw [if_pos m2] at h1
      obtain ⟨i, h3, h4⟩ := andThen_inv h1
      cases h4
      have n1 : start.type = fourcc "moov" := by rw [m2]; decide
      rw [if_pos n1]
      simp only [summaryFrom, hasMoov, n1, decide_true, Bool.true_or, Bool.or_true]
      unfold summaryOne
      rw [if_neg (by decide), if_pos (by decide)]
      have hm := movie_init (id := id) (fast := true) kids _ _ (e4 n1) h3
      have hk : (kids.initOf id).movie { (false, keep id fast s.2).2 with fastStart := !(false, keep id fast s.2).1 } = .ok (keep id true i) := by
        rw [← hm]
        rfl
      rw [hk]
      exact summary_init rest _ _ _ _ _ _ _ e5 h2
    rw [if_neg m2] at h1
    have n1 : start.type ≠ fourcc "moov" := fun e => m2 (e.trans (by decide))
    rw [if_neg n1]
    simp only [hasMoov, n1, decide_false, Bool.false_or]
    by_cases m3 : start.type = tMoof
    · rw [if_pos m3] at h1
      obtain ⟨x, h3, h4⟩ := andThen_inv h1
      cases h4
      have n2 : start.type ∉ initNames.map fourcc := by rw [m3]; decide
      rw [if_neg (fun h => n2 h.1)]
      have hr := summary_init (id := id) rest _ ctx' _ pos' _ s' fast e5 h2
      exact hr
    rw [if_neg m3] at h1
    by_cases m4 : start.type = tMdat
    · rw [if_pos m4] at h1
      cases h1
      have n2 : start.type ∉ initNames.map fourcc := by rw [m4]; decide
      rw [if_neg (fun h => n2 h.1)]
      have hr := summary_init (id := id) rest _ ctx' _ pos' _ s' fast e5 h2
      exact hr
    rw [if_neg m4] at h1
    cases h1
    split
    · simp only [summaryFrom]
      unfold summaryOne
      rw [if_neg m1, if_neg m2, if_neg m3, if_neg m4]
      exact summary_init rest _ _ _ _ _ _ _ e5 h2
    · exact summary_init rest _ _ _ _ _ _ _ e5 h2

/-! ## The segments -/

theorem segmentsFrom_append (B : Boxes) : ∀ (A : Boxes) (ctx : Ctx) (pos : Nat),
    segmentsFrom (A.append B) ctx pos = andThen (segmentsFrom A ctx pos) fun l =>
      andThen (segmentsFrom B (A.endCtx true ctx) (pos + (A.ser true ctx).length)) fun l' => .ok (l ++ l')
  | .nil, ctx, pos => by
    simp only [Boxes.append, segmentsFrom, andThen, Boxes.ser, List.length_nil, Nat.add_zero, endCtx, List.nil_append]
    exact (andThen_ok _).symm
  | .raw start p rest, ctx, pos => by
    simp only [Boxes.append, segmentsFrom, endCtx, segmentsFrom_append B rest, ser_length_raw, Nat.add_assoc]
  | .box start bd sv kids rest, ctx, pos => by
    simp only [Boxes.append, segmentsFrom, endCtx, segmentsFrom_append B rest, ser_length_box, Nat.add_assoc]
    generalize (if start.type = tMoof then _ else _ : Out (List Segment)) = x
    cases x with
    | ok l =>
      simp only [andThen]
      generalize segmentsFrom rest _ _ = y
      cases y with
      | ok l' =>
        simp only
        generalize segmentsFrom B _ _ = z
        cases z <;> simp
      | _ => rfl
    | _ => rfl

theorem segments_mdats : ∀ (B : Boxes) (ctx : Ctx) (pos : Nat), segmentsFrom B.mdats ctx pos = .ok []
  | .nil, _, _ => rfl
  | .raw _ _ rest, ctx, pos => segments_mdats rest ctx pos
  | .box start bd sv kids rest, ctx, pos => by
    rw [mdats]
    split
    · rfl
    · next e1 =>
      split
      · simp only [segmentsFrom]
        rw [if_neg (fun e => e1 (e.trans (by decide))), segments_mdats rest]
        rfl
      · exact segments_mdats rest ctx pos

theorem summary_segments {id : Nat} : ∀ (B : Boxes) (pos : Nat) (s s' : Bool × ProbeInfo), Exp B → B.Neutral → B.Ok true false {} → B.Unknown true {} →
    B.summaryFrom {} pos s = .ok s' → ∃ L, s'.2.segments = s.2.segments ++ L ∧ ∀ pos', ∃ L',
      segmentsFrom (joinAll (B.segmentsOf id)) {} pos' = .ok L' ∧
      L'.map offsetless = (L.filter fun x => x.trackID == id).map offsetless ∧
      L'.map (·.moofOffset) = startsFrom pos' ((B.segmentsOf id).map (·.ser true {}))
  | .nil, _, s, s', _, _, _, _, h => by cases h; exact ⟨[], by simp, fun _ => ⟨[], rfl, rfl, rfl⟩⟩
  | .raw _ _ _, _, _, _, he, _, _, _, _ => he.elim
  | .box start bd sv kids rest, pos, s, s', he, hn, hok, hu, h => by
    have hn' := hn
    have hok' := hok
    have hu' := hu
    have hfacts := segments_facts (id := id) _ he hn hok hu
    obtain ⟨h1, h2, h3, h4, h5, h6⟩ := hok
    obtain ⟨n1, n2⟩ := rest_neutral (isRoot := true) (ctx := {}) hn
    have hu2 := hu.2
    rw [n1] at h6 hu2
    simp only [summaryFrom] at h
    rw [n1] at h
    obtain ⟨a, g1, g2⟩ := andThen_inv h
    obtain ⟨L, r1, r2⟩ := summary_segments (id := id) rest _ a s' he.2.2.2.2 n2 h6 hu2 g2
    unfold summaryOne at g1
    have other : start.type ≠ fourcc "moof" → a.2.segments = s.2.segments → ∃ L, s'.2.segments = s.2.segments ++ L ∧ ∀ pos', ∃ L',
        segmentsFrom (joinAll ((Boxes.box start bd sv kids rest).segmentsOf id)) {} pos' = .ok L' ∧
        L'.map offsetless = (L.filter fun x => x.trackID == id).map offsetless ∧
        L'.map (·.moofOffset) = startsFrom pos' (((Boxes.box start bd sv kids rest).segmentsOf id).map (·.ser true {})) := by
      intro hm ha
      have e0 : ¬ (start.type = fourcc "moof" ∧ kids.idAt ["traf", "tfhd"] = some id) := fun h => hm h.1
      rw [segmentsOf, if_neg e0]
      exact ⟨L, by rw [r1, ha], r2⟩
    split at g1
    · next m =>
      cases g1
      exact other (by rw [m]; decide) rfl
    · split at g1
      · next m =>
        obtain ⟨i, g3, g4⟩ := andThen_inv g1
        cases g4
        exact other (by rw [m]; decide) ((movie_segments _ _ _ g3).trans rfl)
      · split at g1
        · next m =>
          obtain ⟨x, g3, g4⟩ := andThen_inv g1
          cases g4
          have hm : start.type = fourcc "moof" := by rw [m]; decide
          obtain ⟨i1, i2, i3⟩ := segment_id g3 (he.2.2.1 hm)
          refine ⟨x :: L, by rw [r1]; simp, fun pos' => ?_⟩
          rw [segmentsOf] at hfacts ⊢
          by_cases hx : x.trackID = id
          · rw [hx] at i1
            rw [if_pos ⟨hm, i1⟩] at hfacts ⊢
            have hS := (List.forall_mem_cons.1 hfacts).1
            have hend := endCtx_neutral _ true {} (media_neutral _ hS.2.2)
            obtain ⟨L', q1, q2, q3⟩ := r2 (pos' + ((Boxes.box start bd sv kids rest.mdats).ser true {}).length)
            refine ⟨{ x with moofOffset := pos' } :: L', ?_, ?_, ?_⟩
            · rw [joinAll, segmentsFrom_append, hend, q1]
              simp only [segmentsFrom]
              rw [if_pos m, i3, segments_mdats]
              rfl
            · rw [List.map_cons, q2, List.filter_cons_of_pos (by simpa using hx)]
              rfl
            · rw [List.map_cons, q3]
              rfl
          · rw [if_neg (fun h => hx (by have := h.2; rw [i1, Option.some.injEq] at this; exact this)),
              List.filter_cons_of_neg (by simpa using hx)]
            exact r2 pos'
        · next m =>
          have hm : start.type ≠ fourcc "moof" := fun e => m (e.trans (by decide))
          split at g1
          · cases g1; exact other hm rfl
          · cases g1; exact other hm rfl

end Mp4.DivideBoxes
