import Verif.Lemmas.Float64
import Verif.Spec.Playlist
import Verif.Props.ToolDivide
import Verif.Props.ProbeSafe
import Verif.Lemmas.StringifyText
import Verif.Props.Probe

/-!
# The playlists of `mp4tool divide`: lemmas
-/

namespace Mp4.Props

open Mp4.Tool Mp4.Str Mp4.Playlist

variable {d : Bytes} {fuel : Nat}

/-! ## Text -/

theorem fixedText_decimal (N : Nat) : F64.text (.fin N) = decimal (micros N) := by
  unfold F64.text fixedText decimal micros
  simp only [Int.natAbs_natCast, f64One]
  rw [if_neg (by omega)]
  simp only [Text.num_dec, List.nil_append, List.append_assoc]
  rfl

theorem inum_nat (n : Nat) : inum 10 (n : Int) = Text.dec n := by
  unfold inum
  rw [if_neg (by omega)]
  exact Text.num_dec n

theorem lines_append (a b : List Text) : lines (a ++ b) = lines a ++ lines b := by
  unfold lines
  rw [List.flatMap_append]

theorem lines_cons (a : Text) (l : List Text) : lines (a :: l) = a ++ lit "\n" ++ lines l := rfl

theorem lines_nil : lines [] = [] := rfl

theorem entries_lines : ∀ (l : List Nat) (i : Nat),
    mediaEntries i (l.map .fin) = lines (((l.map micros).zipIdx i).flatMap fun x => entry x.1 x.2)
  | [], i => rfl
  | N :: l, i => by
    rw [List.map_cons, mediaEntries, fixedText_decimal, entries_lines l (i + 1), List.map_cons, List.zipIdx_cons, List.flatMap_cons, lines_append]
    unfold entry segmentName
    rw [inum_nat, lines_cons, lines_cons, lines_nil]
    simp only [List.append_assoc, List.append_nil]
    rfl

theorem media_lines (target x : Text) :
    lit "#EXTM3U\n" ++ lit "#EXT-X-VERSION:7\n" ++ lit "#EXT-X-TARGETDURATION:" ++ target ++ lit "\n" ++ lit "#EXT-X-PLAYLIST-TYPE:VOD\n" ++
      lit "#EXT-X-MAP:URI=\"init.mp4\"\n" ++ x ++ lit "#EXT-X-ENDLIST\n" =
    lines [lit "#EXTM3U", lit "#EXT-X-VERSION:7", lit "#EXT-X-TARGETDURATION:" ++ target, lit "#EXT-X-PLAYLIST-TYPE:VOD",
      lit "#EXT-X-MAP:URI=\"init.mp4\""] ++ x ++ lines [lit "#EXT-X-ENDLIST"] := by
  simp only [lines_cons, lines_nil, List.append_assoc, List.append_nil]
  rfl

/-! ## The longest segment -/

theorem maxDur_fin : ∀ (l : List Nat) (m : Nat), ∃ M, (l.map F64.fin).foldl (fun m x => if x.gt m then x else m) (.fin m) = .fin M ∧
    ∀ T, M ≤ T ↔ m ≤ T ∧ ∀ N ∈ l, N ≤ T
  | [], m => ⟨m, rfl, fun T => by simp⟩
  | N :: l, m => by
    have e : (if (F64.fin N).gt (.fin m) then F64.fin N else .fin m) = .fin (max m N) := by
      unfold F64.gt
      simp only [decide_eq_true_eq]
      split
      · rw [Nat.max_eq_right (by omega)]
      · rw [Nat.max_eq_left (by omega)]
    obtain ⟨M, h1, h2⟩ := maxDur_fin l (max m N)
    refine ⟨M, ?_, fun T => ?_⟩
    · rw [List.map_cons, List.foldl_cons, e, h1]
    · rw [h2 T, Nat.max_le, List.forall_mem_cons, and_assoc]

theorem ceil_le (M T : Nat) : (M + (f64One - 1)) / f64One ≤ T ↔ M ≤ T * f64One := by
  have hp := one_pos
  rw [← Nat.lt_succ_iff, Nat.div_lt_iff_lt_mul hp, Nat.succ_mul]
  omega

/-- a number that is finite -/
def val : F64 → Nat
  | .fin N => N
  | _ => 0

theorem val_eq {x : F64} {N : Nat} (e : x = .fin N) : val x = N := by subst e; rfl

/-- the duration of a segment as a number of units -/
def secN (t : DTrack) (a : Nat) : Nat := val (seconds t a)

theorem secN_spec {t : DTrack} {a : Nat} (ha : a < 2 ^ 32) (hb : 0 < t.timescale) (hb' : t.timescale < 2 ^ 32) :
    seconds t a = .fin (secN t a) ∧ Nearest (micros (secN t a)) a t.timescale ∧ ∀ T, secN t a ≤ T * f64One ↔ a ≤ T * t.timescale := by
  obtain ⟨N, e, h1, h2, h3⟩ := seconds_rel ha hb hb'
  have e' : secN t a = N := val_eq e
  rw [e']
  exact ⟨e, seconds_micros ha h1 h2, seconds_ceil ha h1 h2 h3⟩

/-- The text of a media playlist. -/
theorem mediaPlaylist_text (cv : Conv) {t : DTrack} {ticks : List Nat} (ha : ∀ a ∈ ticks, a < 2 ^ 32) (hb : 0 < t.timescale)
    (hb' : t.timescale < 2 ^ 32) :
    ∃ target, Target target t.timescale ticks ∧
      mediaPlaylist cv (ticks.map (seconds t)) = lines (media target ((ticks.map (secN t)).map micros)) := by
  have e : ticks.map (seconds t) = (ticks.map (secN t)).map .fin := by
    rw [List.map_map]
    exact List.map_congr_left fun a h => (secN_spec (ha a h) hb hb').1
  obtain ⟨M, h1, h2⟩ := maxDur_fin (ticks.map (secN t)) 0
  have h3 : ∀ T, (M + (f64One - 1)) / f64One ≤ T ↔ ∀ a ∈ ticks, a ≤ T * t.timescale := by
    intro T
    rw [ceil_le, h2]
    constructor
    · rintro ⟨-, h⟩ a hm
      exact ((secN_spec (ha a hm) hb hb').2.2 T).1 (h _ (List.mem_map_of_mem hm))
    · intro h
      refine ⟨Nat.zero_le _, fun N hN => ?_⟩
      obtain ⟨a, hm, rfl⟩ := List.mem_map.1 hN
      exact ((secN_spec (ha a hm) hb hb').2.2 T).2 (h a hm)
  refine ⟨(M + (f64One - 1)) / f64One, ⟨(h3 _).1 (Nat.le_refl _), fun T h => (h3 T).2 h⟩, ?_⟩
  have hr : (M + (f64One - 1)) / f64One ≤ 2 ^ 32 := by
    refine (h3 _).2 fun a hm => ?_
    have := ha a hm
    have : 2 ^ 32 * 1 ≤ 2 ^ 32 * t.timescale := Nat.mul_le_mul_left _ hb
    omega
  have e2 : toInt cv (maxDur ((ticks.map (secN t)).map .fin)).ceil = (((M + (f64One - 1)) / f64One : Nat) : Int) := by
    unfold maxDur
    rw [h1]
    unfold F64.ceil toInt
    simp only
    rw [Nat.mul_div_cancel _ one_pos, if_pos (by omega)]
  unfold mediaPlaylist media
  rw [e, e2, inum_nat, entries_lines, lines_append, lines_append]
  exact media_lines _ _

/-! ## The bandwidth -/

theorem bandwidth_fold (f : Nat × Nat → Nat) : ∀ (l : List (Nat × Nat)) (m : Nat),
    (∀ x ∈ l, f x ≤ l.foldl (fun m x => if f x > m then f x else m) m) ∧ m ≤ l.foldl (fun m x => if f x > m then f x else m) m ∧
    (l.foldl (fun m x => if f x > m then f x else m) m = m ∨ ∃ x ∈ l, l.foldl (fun m x => if f x > m then f x else m) m = f x)
  | [], m => ⟨by simp, Nat.le_refl _, .inl rfl⟩
  | x :: l, m => by
    rw [List.foldl_cons]
    obtain ⟨h1, h2, h3⟩ := bandwidth_fold f l (if f x > m then f x else m)
    generalize l.foldl (fun m x => if f x > m then f x else m) (if f x > m then f x else m) = r at *
    refine ⟨?_, ?_, ?_⟩
    · intro y hy
      rcases List.mem_cons.1 hy with rfl | hy
      · split at h2 <;> omega
      · exact h1 y hy
    · split at h2 <;> omega
    · rcases h3 with h3 | ⟨y, hy, h3⟩
      · split at h3
        · exact .inr ⟨x, List.mem_cons_self, h3⟩
        · exact .inl h3
      · exact .inr ⟨y, List.mem_cons_of_mem _ hy, h3⟩

theorem bandwidth_peak (cv : Conv) {t : DTrack} {l : List (Nat × Nat)} (hb : 0 < t.timescale) (hb' : t.timescale < 2 ^ 32)
    (h : ∀ x ∈ l, x.1 < 2 ^ 64 ∧ x.2 < 2 ^ 32 ∧ 0 < x.2 ∧ 8 * x.1 * t.timescale < 2 ^ 63 * x.2) : Peak (bandwidth cv t l) t.timescale l := by
  have hr : ∀ x ∈ l, Rate (mdatRate cv t x) x.1 x.2 t.timescale := fun x hx => by
    obtain ⟨h1, h2, h3, h4⟩ := h x hx
    exact rate_rel cv h1 h2 h3 hb hb' h4
  obtain ⟨h1, -, h3⟩ := bandwidth_fold (mdatRate cv t) l 0
  refine ⟨fun e => by subst e; rfl, fun e => ?_, fun x hx => ⟨_, hr x hx, h1 x hx⟩⟩
  rcases h3 with h3 | ⟨x, hx, h3⟩
  · obtain ⟨x, hx⟩ := List.exists_mem_of_ne_nil l e
    have h4 := h1 x hx
    rw [h3] at h4
    refine ⟨x, hx, ?_⟩
    have e3 : bandwidth cv t l = mdatRate cv t x := by unfold bandwidth; rw [h3]; omega
    rw [e3]
    exact hr x hx
  · refine ⟨x, hx, ?_⟩
    have e3 : bandwidth cv t l = mdatRate cv t x := by unfold bandwidth; rw [h3]
    rw [e3]
    exact hr x hx

/-! ## The tracks by their kinds -/

theorem fold_upd {β : Type} (g : DTrack → β) : ∀ (os : List DTrack) (f : Kind → Option β), os.Pairwise (fun a b => a.kind ≠ b.kind) → ∀ k,
    os.foldl (fun m t => upd m t.kind (some (g t))) f k = ((os.find? fun t => t.kind == k).map g).or (f k)
  | [], f, _, k => rfl
  | t :: os, f, h, k => by
    rw [List.foldl_cons, fold_upd g os _ (List.pairwise_cons.1 h).2 k, List.find?_cons]
    by_cases e : t.kind = k
    · have : os.find? (fun u => u.kind == k) = none := by
        rw [List.find?_eq_none]
        intro u hu
        have := (List.pairwise_cons.1 h).1 u hu
        rw [e] at this
        simpa using fun e' => this e'.symm
      rw [this]
      subst e
      simp [upd]
    · have e1 : (t.kind == k) = false := by simpa using e
      rw [e1]
      simp [upd, Ne.symm e]

theorem find_perm {a b : List DTrack} (h : a.Perm b) (hb : b.Pairwise fun a b => a.kind ≠ b.kind) (k : Kind) :
    (a.find? fun t => t.kind == k) = b.find? fun t => t.kind == k := by
  have ha : a.Pairwise fun a b => a.kind ≠ b.kind := (h.pairwise_iff fun h => h.symm).2 hb
  have uniq : ∀ {l : List DTrack}, l.Pairwise (fun a b => a.kind ≠ b.kind) → ∀ {x}, x ∈ l → x.kind = k → (l.find? fun t => t.kind == k) = some x := by
    intro l hl
    induction hl with
    | nil => intro x hx; simp at hx
    | cons h1 h2 ih =>
      intro x hx e
      rw [List.find?_cons]
      rcases List.mem_cons.1 hx with rfl | hx
      · simp [e]
      · have := h1 x hx
        rw [e] at this
        simp only [beq_eq_false_iff_ne.2 this]
        exact ih hx e
  cases hf : b.find? fun t => t.kind == k with
  | none =>
    rw [List.find?_eq_none] at hf ⊢
    exact fun x hx => hf x (h.mem_iff.1 hx)
  | some x =>
    exact uniq ha (h.mem_iff.2 (List.mem_of_find?_eq_some hf)) (by simpa using List.find?_some hf)

theorem find_mem {l : List DTrack} (h : l.Pairwise fun a b => a.kind ≠ b.kind) {x : DTrack} (hx : x ∈ l) :
    (l.find? fun t => t.kind == x.kind) = some x := by
  induction h with
  | nil => simp at hx
  | cons h1 h2 ih =>
    rw [List.find?_cons]
    rcases List.mem_cons.1 hx with rfl | hx
    · simp
    · simp only [beq_eq_false_iff_ne.2 (h1 x hx)]
      exact ih hx

theorem dir_name (k : Kind) : k.dir = dirName k := by cases k <;> rfl

theorem master_aux (bw : DTrack → Nat) (f : Kind → Option (DTrack × Nat)) : ∀ (a1 a2 v1 v2 : Option DTrack),
    f .audio = a1.map (fun t => (t, bw t)) → f .encAudio = a2.map (fun t => (t, bw t)) →
    f .video = v1.map (fun t => (t, bw t)) → f .encVideo = v2.map (fun t => (t, bw t)) →
    (∀ {t}, a1 = some t → t.kind = .audio) → (∀ {t}, a2 = some t → t.kind = .encAudio) →
    (∀ {t}, v1 = some t → t.kind = .video) → (∀ {t}, v2 = some t → t.kind = .encVideo) →
    masterPlaylist f = lines (master ((a1.or a2).map fun t => dirName t.kind) ((v1.or v2).map fun t => (dirName t.kind, bw t, t.width, t.height))) := by
  have n1 : Kind.audio.dir ≠ [] := by decide
  have n2 : Kind.encAudio.dir ≠ [] := by decide
  intro a1 a2 v1 v2 e1 e2 e3 e4 h1 h2 h3 h4
  unfold masterPlaylist master
  rw [e1, e2, e3, e4]
  rcases a1 with - | a1 <;> rcases a2 with - | a2 <;> rcases v1 with - | v1 <;> rcases v2 with - | v2 <;>
    simp only [Option.map_none, Option.map_some, Option.isSome_none, Option.isSome_some, if_true, Bool.false_eq_true, if_false, ne_eq, not_true_eq_false,
      n1, n2, not_false_eq_true, h1, h2, h3, h4, Option.none_or, Option.some_or, ← dir_name, lines_append, lines_cons, lines_nil, List.append_assoc,
      List.append_nil, Text.num_dec] <;>
    rfl

/-- The text of the master playlist. -/
theorem master_text (ts : List DTrack) (bw : DTrack → Nat) :
    masterPlaylist (fun k => (ts.find? fun t => t.kind == k).map fun t => (t, bw t)) =
      lines (master ((firstOf ts [.audio, .encAudio]).map fun t => dirName t.kind)
        ((firstOf ts [.video, .encVideo]).map fun t => (dirName t.kind, bw t, t.width, t.height))) := by
  have hk : ∀ {k : Kind} {t : DTrack}, (ts.find? fun t => t.kind == k) = some t → t.kind = k := fun h => by simpa using List.find?_some h
  have hf : ∀ k k', firstOf ts [k, k'] = (ts.find? fun t => t.kind == k).or (ts.find? fun t => t.kind == k') := by
    intro k k'
    unfold firstOf
    simp only [List.findSome?_cons, List.findSome?_nil]
    generalize (ts.find? fun t => t.kind == k) = a
    generalize (ts.find? fun t => t.kind == k') = b
    cases a <;> cases b <;> rfl
  rw [hf, hf]
  exact master_aux bw _ _ _ _ _ rfl rfl rfl rfl hk hk hk hk

/-! ## Numbers of the file -/

theorem bd_mdhd : ∀ bd ∈ Cat.allDefs, bd.goName = "Mdhd" → bd = Cat.bdMdhd := by
  unfold Cat.allDefs
  simp only [List.forall_mem_cons]
  repeat' apply And.intro
  all_goals first
    | (intro _; rfl)
    | (intro _; trivial)
    | (intro h; exact absurd h (by decide))
    | (intro x hx; exact absurd hx (by simp))

theorem timescale_small (hd : d.length ≤ 2 ^ 48) {bi : BoxInfo} (hr : Real d bi) {x : SV} (h : x ∈ below d fuel ["mdia", "mdhd"] bi) :
    x.uint "Timescale" < 2 ^ 32 := by
  unfold below at h
  cases hx : extractBoxWithPayload BoxMap.std d fuel (some bi) (["mdia", "mdhd"].map fourcc) 0 with
  | mk o p =>
    rw [hx] at h
    cases o with
    | err e => simp at h
    | panic => simp at h
    | hang => simp at h
    | ok l =>
      obtain ⟨y, hy, rfl⟩ := List.mem_map.1 h
      obtain ⟨ctx, hc⟩ := (extract_payload_sound hd fuel bi hr [["mdia", "mdhd"].map fourcc] 0).2 l p hx
      obtain ⟨⟨path, hp, ha⟩, hg, hty⟩ := hc y hy
      have ht : y.1.type = tMdhd := by
        have := leads_type hp
        obtain ⟨-, q, hq, hq2⟩ := ha
        rw [List.mem_singleton] at hq
        subst hq
        rw [← (hasPattern_exact (by decide)).1 hq2] at this
        exact (Option.some.inj this).symm.trans (by decide)
      rw [ht] at hg
      obtain ⟨bd, h1, h2⟩ := lookup_single (asserted (tMdhd, "Mdhd") (by simp)) ctx
      rw [hg] at h1
      cases h1
      have hm := std_mem hg
      have e := bd_mdhd _ hm h2
      obtain ⟨v, hv, ht⟩ := typed_get (f := { name := "Timescale", size := 32 }) (t := .uint 32) (Fields.nodup_names _ (allDefs_nodup _ hm)) hty
        (by rw [e]; simp [Cat.bdMdhd, Cat.fsMdhd, Fields.ofList, Fields.toList])
      obtain ⟨k, rfl, hk⟩ := typedV_uint_inv ht
      simp only [SV.uint, hv]
      exact hk

end Mp4.Props
