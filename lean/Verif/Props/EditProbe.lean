import Verif.Props.EditBoxes
import Verif.Props.Summary
import Verif.Spec.EditProbe

/-!
# Properties of `mp4tool edit` and `Probe` together

* C87 `edit_then_probe`, `edit_then_probe_same`: dropping boxes that `Probe` does not look at, and setting decode times, changes nothing in the
  answer of `Probe` apart from the offsets and the decode times of the segments.
-/

namespace Mp4.EditProbe

open Mp4 Mp4.Boxes

variable {drop : BoxType → Prop} [DecidablePred drop] {time : Option Nat}

/-! ## The boxes at the paths -/

theorem inside_path : ∀ (K : Boxes) (p : List BoxType), ∀ x ∈ K.inside p, (∃ q, x.1 = p ++ q ∧ q ≠ []) ∧ x.1.getLast? = some x.2.type
  | .nil, _, _, h => by cases h
  | .raw _ _ rest, p, x, h => inside_path rest p x h
  | .box start bd sv kids rest, p, x, h => by
    simp only [inside, List.mem_cons, List.mem_append] at h
    rcases h with rfl | h | h
    · exact ⟨⟨_, rfl, by simp⟩, by simp⟩
    · obtain ⟨⟨q, e, -⟩, h2⟩ := inside_path kids _ x h
      exact ⟨⟨start.type :: q, by rw [e]; simp, by simp⟩, h2⟩
    · exact inside_path rest p x h

/-- the contents after the edit -/
def renew (time : Option Nat) (v : BoxVal) : BoxVal := { v with sv := newValue time v.type v.sv }

theorem filter_none {K : Boxes} {p : List BoxType} {P : List BoxType → Bool} {t : BoxType} (ht : t ∈ p) (hP : ∀ q, P q = true → t ∉ q) :
    (K.inside p).filter (fun x => P x.1) = [] := by
  rw [List.filter_eq_nil_iff]
  intro x hx e
  obtain ⟨⟨q, e', -⟩, -⟩ := inside_path K p x hx
  exact hP _ e (by rw [e']; exact List.mem_append_left _ ht)

theorem inside_edit {P : List BoxType → Bool} (hd : ∀ q, P q = true → ∀ t ∈ q, ¬ drop t) (hm : ∀ q, P q = true → tMdat ∉ q) :
    ∀ (K : Boxes) (p : List BoxType),
    ((K.edit drop time).inside p).filter (fun x => P x.1) = ((K.inside p).filter (fun x => P x.1)).map fun x => (x.1, renew time x.2)
  | .nil, _ => rfl
  | .raw start q rest, p => by
    have h := inside_edit hd hm rest p
    rw [edit]
    split <;> exact h
  | .box start bd sv kids rest, p => by
    have h := inside_edit hd hm rest p
    have hk := inside_edit hd hm kids (p ++ [start.type])
    have hself : start.type ∈ p ++ [start.type] := by simp
    by_cases h1 : drop start.type
    · have hn : ∀ q, P q = true → start.type ∉ q := fun q e hq => hd q e _ hq h1
      rw [edit_drop h1, h, inside, List.filter_cons_of_neg (p := fun x : List BoxType × BoxVal => P x.1) (fun e => hn _ e hself), List.filter_append, filter_none hself hn, List.nil_append]
    · by_cases h2 : start.type = ⟨0x6d, 0x64, 0x61, 0x74⟩
      · have hn : ∀ q, P q = true → start.type ∉ q := fun q e hq => hm q e (by rw [h2] at hq; exact hq)
        rw [edit_mdat h1 h2, inside, inside, List.filter_cons_of_neg (p := fun x : List BoxType × BoxVal => P x.1) (fun e => hn _ e hself),
          List.filter_cons_of_neg (p := fun x : List BoxType × BoxVal => P x.1) (fun e => hn _ e hself),
          List.filter_append, List.filter_append, filter_none hself hn, List.nil_append, List.nil_append, h]
      · rw [edit_keep h1 h2, inside, inside, List.filter_cons, List.filter_cons, List.filter_append, List.filter_append, h, hk]
        split <;> simp [renew]

theorem atPaths_edit {paths : List (List BoxType)} (hd : ∀ q ∈ paths, ∀ t ∈ q, ¬ drop t) (hm : ∀ q ∈ paths, tMdat ∉ q) (K : Boxes) :
    (K.edit drop time).atPaths paths = (K.atPaths paths).map fun x => (x.1, renew time x.2) := by
  unfold atPaths
  rw [inside_edit (P := fun q => paths.contains q) (fun q e => hd q (by simpa using e)) (fun q e => hm q (by simpa using e))]
  simp [renew, Function.comp_def]

/-! ## Tracks -/

theorem renew_ne {v : BoxVal} (h : v.type ≠ tTfdt) : renew time v = v := by
  unfold renew newValue
  cases time with
  | none => rfl
  | some t => simp only; rw [if_neg (show ¬ v.type = ⟨0x74, 0x66, 0x64, 0x74⟩ from h)]

theorem collect_renew : ∀ (l : List (BoxInfo × BoxVal)) (f : Found), (∀ x ∈ l, x.1.type = x.2.type) →
    collect f (l.map fun x => (x.1, renew time x.2)) = collect f l
  | [], _, _ => rfl
  | (bi, v) :: l, f, h => by
    have e : collectOne f bi.type (renew time v) = collectOne f bi.type v := by
      have hb : bi.type = v.type := h _ List.mem_cons_self
      by_cases e : bi.type = tTfdt
      · rw [e]; rfl
      · rw [renew_ne (fun e' => e (hb.trans e'))]
    simp only [List.map_cons, collect]
    rw [e]
    cases collectOne f bi.type v with
    | none => rfl
    | some f' => exact collect_renew l f' (fun x hx => h x (List.mem_cons_of_mem _ hx))

theorem atPaths_type (K : Boxes) (paths : List (List BoxType)) : ∀ x ∈ K.atPaths paths, x.1.type = x.2.type := by
  intro x hx
  unfold atPaths at hx
  rw [List.mem_map] at hx
  obtain ⟨y, -, rfl⟩ := hx
  rfl

theorem track_edit (hd : ∀ t ∈ consulted, ¬ drop t) (K : Boxes) : (K.edit drop time).track = K.track := by
  unfold track
  rw [atPaths_edit (fun q hq t ht => hd t (?_)) (by decide +kernel), collect_renew _ _ (atPaths_type K _)]
  exact (show ∀ q ∈ trakPaths, ∀ t ∈ q, t ∈ consulted by decide +kernel) q hq t ht

theorem movie_edit (hd : ∀ t ∈ consulted, ¬ drop t) : ∀ (K : Boxes) (info : ProbeInfo), (K.edit drop time).movie info = K.movie info
  | .nil, _ => rfl
  | .raw start q rest, info => by
    rw [edit]
    split <;> exact movie_edit hd rest info
  | .box start bd sv kids rest, info => by
    have h := fun i => movie_edit hd rest i
    by_cases h1 : drop start.type
    · rw [edit_drop h1, h, movie, if_neg (fun e => hd _ (by decide +kernel) (e ▸ h1)), if_neg (fun e => hd _ (by decide +kernel) (e ▸ h1))]
      rfl
    · by_cases h2 : start.type = ⟨0x6d, 0x64, 0x61, 0x74⟩
      · rw [edit_mdat h1 h2, movie, movie, funext h]
      · rw [edit_keep h1 h2, movie, movie, funext h, track_edit hd]
        by_cases e : start.type = tMvhd
        · rw [if_pos e, if_pos e, show newValue time start.type sv = sv from congrArg BoxVal.sv (renew_ne (time := time) (v := ⟨bd, start.type, sv⟩) (show start.type ≠ tTfdt by rw [e]; decide))]
        · rw [if_neg e, if_neg e]

/-! ## Segments -/

/-- a `tfdt` box has a decode time -/
def Timed (v : BoxVal) : Prop := v.type = tTfdt → ∀ t, (setTime t v.sv).version = v.sv.version ∧
  (if v.sv.version = 0 then (setTime t v.sv).uint "BaseMediaDecodeTimeV0" = t % 2 ^ 32 else (setTime t v.sv).uint "BaseMediaDecodeTimeV1" = t)

theorem inside_timed : ∀ (K : Boxes) (isRoot last : Bool) (ctx : Ctx), K.Ok isRoot last ctx → ∀ p, ∀ x ∈ K.inside p, Timed x.2
  | .nil, _, _, _, _, _, _, h => by cases h
  | .raw _ _ rest, isRoot, last, ctx, ⟨_, _, _, _, h5⟩, p, x, h => inside_timed rest isRoot last ctx h5 p x h
  | .box start bd sv kids rest, isRoot, last, ctx, ⟨_, _, h3, h4, h5, h6⟩, p, x, h => by
    simp only [inside, List.mem_cons, List.mem_append] at h
    rcases h with rfl | h | h
    · intro e t
      simp only at e ⊢
      rw [e, std_tfdt] at h3
      cases h3
      obtain ⟨v, a, b, c, x, y, hv, rfl⟩ := tfdt_shape h4
      refine ⟨setTime_version t _, ?_⟩
      rw [setTime_shape, show (tfdtSV v a b c x y).version = v by simp [tfdtSV, SV.version, SV.full, SV.get, SV.uint, Spec.fullBox]]
      rcases hv with rfl | rfl <;> rfl
    · exact inside_timed kids _ _ _ h5 _ x h
    · exact inside_timed rest _ _ _ h6 p x h

/-- what the loop has collected, after the edit -/
def renewFrag (time : Option Nat) (f : FoundFrag) : FoundFrag := { f with tfdt := f.tfdt.map (newValue time tTfdt) }

theorem collectFrag_renew (time : Option Nat) : ∀ (l : List (BoxInfo × BoxVal)) (f : FoundFrag), (∀ x ∈ l, x.1.type = x.2.type) →
    collectFrag (renewFrag time f) (l.map fun x => (x.1, renew time x.2)) = (collectFrag f l).map (renewFrag time)
  | [], _, _ => rfl
  | (bi, v) :: l, f, h => by
    have hb : bi.type = v.type := h _ List.mem_cons_self
    have ih := fun f' => collectFrag_renew time l f' (fun x hx => h x (List.mem_cons_of_mem _ hx))
    simp only [List.map_cons, collectFrag]
    by_cases e2 : bi.type = tTfdt
    · have e1 : ¬ bi.type = tTfhd := by rw [e2]; decide
      rw [if_neg e1, if_neg e1, if_pos e2, if_pos e2]
      unfold BoxVal.assert
      have hbd : (renew time v).bd = v.bd := rfl
      rw [hbd]
      by_cases hg : v.bd.goName = "Tfdt"
      · rw [if_pos hg, if_pos hg]
        have hs : (renew time v).sv = newValue time tTfdt v.sv := by rw [← e2, hb]; rfl
        simp only [Option.map_some, hs]
        exact ih { f with tfdt := some v.sv }
      · rw [if_neg hg, if_neg hg]; rfl
    · rw [renew_ne (fun e' => e2 (hb.trans e'))]
      by_cases e1 : bi.type = tTfhd
      · rw [if_pos e1, if_pos e1]
        cases v.assert "Tfhd" with
        | none => rfl
        | some s => exact ih { f with tfhd := some s }
      · rw [if_neg e1, if_neg e1, if_neg e2, if_neg e2]
        by_cases e3 : bi.type = tTrun
        · rw [if_pos e3, if_pos e3]
          cases v.assert "Trun" with
          | none => rfl
          | some s => exact ih { f with trun := some s }
        · rw [if_neg e3, if_neg e3]
          exact ih f

/-- the `tfdt` collected is the last one -/
theorem collectFrag_last : ∀ (l : List (BoxInfo × BoxVal)) (f f' : FoundFrag), collectFrag f l = some f' →
    f'.tfdt = (((l.filter fun x => x.1.type == tTfdt).getLast?).map (·.2.sv)).or f.tfdt
  | [], f, f', h => by cases h; rfl
  | (bi, v) :: l, f, f', h => by
    simp only [collectFrag] at h
    by_cases e2 : bi.type = tTfdt
    · have e1 : ¬ bi.type = tTfhd := by rw [e2]; decide
      rw [if_neg e1, if_pos e2] at h
      rw [List.filter_cons_of_pos (by simpa using e2)]
      unfold BoxVal.assert at h
      by_cases hg : v.bd.goName = "Tfdt"
      · rw [if_pos hg] at h
        have ih := collectFrag_last l _ f' h
        rw [ih, List.getLast?_cons]
        cases (l.filter fun x => x.1.type == tTfdt).getLast? <;> rfl
      · rw [if_neg hg] at h; cases h
    · rw [List.filter_cons_of_neg (by simpa using e2)]
      by_cases e1 : bi.type = tTfhd
      · rw [if_pos e1] at h
        cases hv : v.assert "Tfhd" with
        | none => rw [hv] at h; cases h
        | some s => rw [hv] at h; exact collectFrag_last l { f with tfhd := some s } f' h
      · rw [if_neg e1, if_neg e2] at h
        by_cases e3 : bi.type = tTrun
        · rw [if_pos e3] at h
          cases hv : v.assert "Trun" with
          | none => rw [hv] at h; cases h
          | some s => rw [hv] at h; exact collectFrag_last l { f with trun := some s } f' h
        · rw [if_neg e3] at h
          exact collectFrag_last l f f' h

theorem last_path (K : Boxes) : (((K.atPaths moofPaths).filter fun x => x.1.type == tTfdt).getLast?).map (·.2.sv) = (lastTime K).map (·.sv) := by
  have e : (K.atPaths moofPaths).filter (fun x => x.1.type == tTfdt) =
      ((K.inside []).filter fun x => x.1 == [fourCC "traf", fourCC "tfdt"]).map fun x => ({ type := x.2.type }, x.2) := by
    unfold atPaths
    rw [List.filter_map, List.filter_filter]
    congr 1
    apply List.filter_congr
    intro x hx
    have hl := (inside_path K [] x hx).2
    rw [show ([fourCC "traf", fourCC "tfdt"] : List BoxType) = [tTraf, tTfdt] by decide +kernel]
    simp only [Function.comp]
    rw [Bool.eq_iff_iff]
    simp only [Bool.and_eq_true, beq_iff_eq, List.contains_iff_mem]
    constructor
    · intro ⟨h1, h2⟩
      rw [h1] at hl
      simp only [moofPaths, List.mem_cons, List.not_mem_nil, or_false] at h2
      rcases h2 with h2 | h2 | h2
      · rw [h2] at hl; exact absurd hl (by decide)
      · exact h2
      · rw [h2] at hl; exact absurd hl (by decide)
    · intro h
      rw [h] at hl ⊢
      exact ⟨(Option.some.inj hl).symm, by decide⟩
  rw [e, List.getLast?_map]
  unfold lastTime
  cases ((K.inside []).filter fun x => x.1 == [fourCC "traf", fourCC "tfdt"]).getLast? <;> rfl

/-- the outcome for a segment after the edit -/
theorem segment_edit (hd : ∀ t ∈ consulted, ¬ drop t) (K : Boxes) (isRoot last : Bool) (ctx : Ctx) (hok : K.Ok isRoot last ctx) (o o' : Nat) :
    (K.edit drop time).segment o' = andThen (K.segment o) fun a =>
      .ok { a with moofOffset := o', baseMediaDecodeTime := newTime time K a.baseMediaDecodeTime } := by
  have ht : ∀ v, lastTime K = some v → v.type = tTfdt ∧ Timed v := by
    intro v hv
    unfold lastTime at hv
    rw [Option.map_eq_some_iff] at hv
    obtain ⟨x, hx, rfl⟩ := hv
    obtain ⟨h1, h2⟩ := List.mem_filter.1 (List.mem_of_getLast? hx)
    have hl := (inside_path K [] x h1).2
    rw [eq_of_beq h2] at hl
    exact ⟨(Option.some.inj hl).symm.trans (by decide +kernel), inside_timed K _ _ _ hok [] x h1⟩
  have hp := collectFrag_renew time (K.atPaths moofPaths) {} (atPaths_type K _)
  have hl := collectFrag_last (K.atPaths moofPaths) {}
  unfold segment
  rw [atPaths_edit (fun q hq t ht => hd t ((show ∀ q ∈ moofPaths, ∀ t ∈ q, t ∈ consulted by decide +kernel) q hq t ht)) (by decide +kernel)]
  rw [show renewFrag time {} = {} from rfl] at hp
  rw [hp]
  cases hc : collectFrag {} (K.atPaths moofPaths) with
  | none => rfl
  | some f =>
    have hlast := hl f hc
    rw [last_path] at hlast
    simp only [Option.or_none] at hlast
    simp only [Option.map_some]
    have hb : (match (renewFrag time f).tfdt with
        | some s => if s.version = 0 then s.uint "BaseMediaDecodeTimeV0" else s.uint "BaseMediaDecodeTimeV1"
        | none => 0) = newTime time K (match f.tfdt with
        | some s => if s.version = 0 then s.uint "BaseMediaDecodeTimeV0" else s.uint "BaseMediaDecodeTimeV1"
        | none => 0) := by
      unfold renewFrag newTime
      simp only
      rw [hlast]
      cases hv : lastTime K with
      | none => cases time <;> rfl
      | some v =>
        cases time with
        | none => rfl
        | some t =>
          obtain ⟨e, h⟩ := ht v hv
          obtain ⟨h1, h2⟩ := h e t
          simp only [Option.map_some]
          show (if (setTime t v.sv).version = 0 then _ else _) = _
          rw [h1]
          by_cases hz : v.sv.version = 0
          · rw [if_pos hz] at h2
            rw [if_pos hz, if_pos hz]
            exact h2
          · rw [if_neg hz] at h2
            rw [if_neg hz, if_neg hz]
            exact h2
    unfold segmentOf
    show (match f.tfhd with | none => _ | some tfhd => _) = _
    cases f.tfhd with
    | none => rfl
    | some h =>
      show (match f.trun with | none => _ | some trun => _) = _
      cases f.trun with
      | none => exact congrArg (fun n => Out.ok (Segment.mk (h.uint "TrackID") o' n (h.uint "DefaultSampleDuration") 0 0 0 0)) hb
      | some r => exact congrArg (fun n => Out.ok (Segment.mk (h.uint "TrackID") o' n _ _ _ _ _)) hb

/-! ## The whole file -/

theorem retimed_snoc : ∀ {ks : List Boxes} {as bs : List Segment} {K : Boxes} {a b : Segment}, Retimed time ks as bs →
    b = { a with moofOffset := b.moofOffset, baseMediaDecodeTime := newTime time K a.baseMediaDecodeTime } →
    Retimed time (ks ++ [K]) (as ++ [a]) (bs ++ [b])
  | [], [], [], _, _, _, _, h => ⟨h, trivial⟩
  | _ :: _, _ :: _, _ :: _, _, _, _, ⟨h1, h2⟩, h => ⟨h1, retimed_snoc h2 h⟩
  | [], [], _ :: _, _, _, _, h, _ => h.elim
  | [], _ :: _, [], _, _, _, h, _ => h.elim
  | [], _ :: _, _ :: _, _, _, _, h, _ => h.elim
  | _ :: _, [], [], _, _, _, h, _ => h.elim
  | _ :: _, [], _ :: _, _, _, _, h, _ => h.elim
  | _ :: _, _ :: _, [], _, _, _, h, _ => h.elim

/-- two states of the loop -/
def SameState (time : Option Nat) (ks : List Boxes) (s s' : Bool × ProbeInfo) : Prop := s'.1 = s.1 ∧ SameReport time ks s.2 s'.2

/-- two outcomes of the loop -/
def SameStates (time : Option Nat) (ks : List Boxes) : Out (Bool × ProbeInfo) → Out (Bool × ProbeInfo) → Prop
  | .ok a, .ok b => SameState time ks a b
  | .err e, .err e' => e = e'
  | .panic, .panic => True
  | .hang, .hang => True
  | _, _ => False

theorem states_bind {ks ks' : List Boxes} {x y : Out (Bool × ProbeInfo)} {k k' : Bool × ProbeInfo → Out (Bool × ProbeInfo)}
    (h : SameStates time ks x y) (hk : ∀ s s', SameState time ks s s' → SameStates time ks' (k s) (k' s')) :
    SameStates time ks' (andThen x k) (andThen y k') := by
  cases x <;> cases y <;> first | exact h.elim | exact hk _ _ h | exact h

theorem movie_segments : ∀ (K : Boxes) (info : ProbeInfo) (S : List Segment),
    K.movie { info with segments := S } = andThen (K.movie info) fun i => .ok { i with segments := S }
  | .nil, _, _ => rfl
  | .raw _ _ rest, info, S => movie_segments rest info S
  | .box start bd sv kids rest, info, S => by
    simp only [movie]
    by_cases e1 : start.type = tMvhd
    · rw [if_pos e1, if_pos e1]
      exact movie_segments rest { info with
        timescale := sv.uint "Timescale"
        duration := if sv.version = 0 then sv.uint "DurationV0" else sv.uint "DurationV1" } S
    · rw [if_neg e1, if_neg e1]
      by_cases e2 : start.type = tTrak
      · rw [if_pos e2, if_pos e2]
        cases kids.track with
        | ok t => exact movie_segments rest { info with tracks := info.tracks ++ [t] } S
        | _ => rfl
      · rw [if_neg e2, if_neg e2]
        exact movie_segments rest _ S

theorem movie_keeps : ∀ (K : Boxes) (info i : ProbeInfo), K.movie info = .ok i → i.segments = info.segments
  | .nil, _, _, h => by cases h; rfl
  | .raw _ _ rest, info, i, h => movie_keeps rest info i h
  | .box start bd sv kids rest, info, i, h => by
    simp only [movie] at h
    by_cases e1 : start.type = tMvhd
    · rw [if_pos e1] at h
      exact movie_keeps rest { info with
        timescale := sv.uint "Timescale"
        duration := if sv.version = 0 then sv.uint "DurationV0" else sv.uint "DurationV1" } i h
    · rw [if_neg e1] at h
      by_cases e2 : start.type = tTrak
      · rw [if_pos e2] at h
        cases hk : kids.track with
        | ok t => rw [hk] at h; exact movie_keeps rest { info with tracks := info.tracks ++ [t] } i h
        | _ => rw [hk] at h; cases h
      · rw [if_neg e2] at h
        exact movie_keeps rest _ i h

theorem one_edit (hd : ∀ t ∈ consulted, ¬ drop t) {t : BoxType} (sv : SV) (K K' : Boxes) (hK : t = tMdat ∧ K' = K ∨ K' = K.edit drop time)
    (isRoot last : Bool) (ctx : Ctx) (hok : K.Ok isRoot last ctx) (o o' : Nat) {ks : List Boxes} {s s' : Bool × ProbeInfo} (hs : SameState time ks s s') :
    SameStates time (ks ++ if t = fourCC "moof" then [K] else []) (summaryOne t sv K o s) (summaryOne t (newValue time t sv) K' o' s') := by
  obtain ⟨f, i⟩ := s
  obtain ⟨f', i'⟩ := s'
  obtain rfl : f' = f := hs.1
  obtain ⟨-, h2, h3⟩ := hs
  simp only at h2 h3
  have hne : t ≠ tTfdt → newValue time t sv = sv := fun e => congrArg BoxVal.sv (renew_ne (time := time) (v := ⟨Cat.bdTfdt, t, sv⟩) e)
  have em : (fourCC "moof") = tMoof := by decide +kernel
  rw [em]
  unfold summaryOne
  by_cases e1 : t = tFtyp
  · have e2 : ¬ t = tMoof := by rw [e1]; decide
    rw [if_pos e1, if_pos e1, if_neg e2, List.append_nil, hne (by rw [e1]; decide)]
    refine ⟨rfl, ?_, h3⟩
    simp only
    rw [h2]
  rw [if_neg e1, if_neg e1]
  by_cases e2 : t = Mp4.tMoov
  · have e3 : ¬ t = tMoof := by rw [e2]; decide
    rw [if_pos e2, if_pos e2, if_neg e3, List.append_nil]
    have hK' : K' = K.edit drop time := by
      rcases hK with ⟨e, -⟩ | h
      · rw [e2] at e; exact absurd e (by decide)
      · exact h
    rw [hK', movie_edit hd]
    simp only
    have hi : { i' with fastStart := !f' } = { ({ i with fastStart := !f' } : ProbeInfo) with segments := i'.segments } := by rw [h2]
    rw [hi, movie_segments]
    cases hm : K.movie { i with fastStart := !f' } with
    | ok j =>
      refine ⟨rfl, rfl, ?_⟩
      simp only
      rw [movie_keeps K _ j hm]
      exact h3
    | err e => exact rfl
    | panic => exact trivial
    | hang => exact trivial
  rw [if_neg e2, if_neg e2]
  by_cases e3 : t = tMoof
  · rw [if_pos e3, if_pos e3, if_pos e3]
    have hK' : K' = K.edit drop time := by
      rcases hK with ⟨e, -⟩ | h
      · rw [e3] at e; exact absurd e (by decide)
      · exact h
    rw [hK', segment_edit hd K isRoot last ctx hok o o']
    cases K.segment o with
    | ok a =>
      refine ⟨rfl, ?_, ?_⟩
      · simp only
        rw [h2]
      · simp only
        exact retimed_snoc h3 rfl
    | err e => exact rfl
    | panic => exact trivial
    | hang => exact trivial
  rw [if_neg e3, if_neg e3, if_neg e3, List.append_nil]
  by_cases e4 : t = tMdat
  · rw [if_pos e4, if_pos e4]
    exact ⟨rfl, h2, h3⟩
  · rw [if_neg e4, if_neg e4]
    exact ⟨rfl, h2, h3⟩

theorem from_edit (hd : ∀ t ∈ consulted, ¬ drop t) : ∀ (B : Boxes) (isRoot last : Bool) (ctx ctx' ctx'' : Ctx), B.Ok isRoot last ctx → ∀ (pos pos' : Nat)
    (ks : List Boxes) (s s' : Bool × ProbeInfo), SameState time ks s s' →
    SameStates time (ks ++ fragments B) (B.summaryFrom ctx' pos s) ((B.edit drop time).summaryFrom ctx'' pos' s')
  | .nil, _, _, _, _, _, _, _, _, ks, s, s', hs => by rw [fragments, List.append_nil]; exact hs
  | .raw start q rest, isRoot, last, ctx, ctx', ctx'', ⟨_, _, _, _, h5⟩, pos, pos', ks, s, s', hs => by
    rw [edit]
    split <;> exact from_edit hd rest isRoot last ctx _ _ h5 _ _ ks s s' hs
  | .box start bd sv kids rest, isRoot, last, ctx, ctx', ctx'', ⟨_, _, _, _, h5, h6⟩, pos, pos', ks, s, s', hs => by
    have em : (fourCC "moof") = tMoof := by decide +kernel
    by_cases h1 : drop start.type
    · have hn : ∀ t ∈ consulted, start.type ≠ t := fun t ht e => hd t ht (e ▸ h1)
      rw [edit_drop h1, fragments, if_neg (hn _ (by decide +kernel))]
      simp only [summaryFrom, summaryOne]
      rw [if_neg (hn _ (by decide +kernel)), if_neg (hn _ (by decide +kernel)), if_neg (hn _ (by decide +kernel)), if_neg (hn _ (by decide +kernel))]
      exact from_edit hd rest isRoot last _ _ _ h6 _ _ ks s s' hs
    · have hks : ks ++ fragments (.box start bd sv kids rest) = (ks ++ if start.type = fourCC "moof" then [kids] else []) ++ fragments rest := by
        rw [fragments]
        split <;> simp
      rw [hks]
      by_cases h2 : start.type = ⟨0x6d, 0x64, 0x61, 0x74⟩
      · rw [edit_mdat h1 h2, summaryFrom, summaryFrom]
        refine states_bind ?_ (fun s s' h => from_edit hd rest isRoot last _ _ _ h6 _ _ _ s s' h)
        have := one_edit (time := time) hd (t := start.type) sv kids kids (.inl ⟨h2, rfl⟩) _ _ _ h5 pos pos' hs
        rwa [show newValue time start.type sv = sv from congrArg BoxVal.sv (renew_ne (time := time) (v := ⟨bd, start.type, sv⟩) (show start.type ≠ tTfdt by rw [h2]; decide))] at this
      · rw [edit_keep h1 h2, summaryFrom, summaryFrom]
        exact states_bind (one_edit hd sv kids _ (.inr rfl) _ _ _ h5 _ _ hs) (fun s s' h => from_edit hd rest isRoot last _ _ _ h6 _ _ _ s s' h)

theorem summary_edit (hd : ∀ t ∈ consulted, ¬ drop t) (B : Boxes) (hok : B.Ok true true {}) :
    SameOutcome time (fragments B) B.summary (B.edit drop time).summary := by
  have h := from_edit (time := time) hd B true true {} {} {} hok 0 0 [] (false, {}) (false, {}) ⟨rfl, rfl, trivial⟩
  unfold summary
  rw [List.nil_append] at h
  revert h
  cases B.summaryFrom {} 0 (false, {}) <;> cases (B.edit drop time).summaryFrom {} 0 (false, {}) <;> intro h <;> first | exact h.elim | exact h.2 | exact h

end Mp4.EditProbe

namespace Mp4.Props

open Mp4 Mp4.Edit Mp4.EditProbe

/-- **C87** — Every file that is the bytes of a row of boxes as in C76: `mp4tool edit`, with any types to be dropped other than `keys` and the types that
`Probe` consults, and with or without a decode time, writes a file of which `Probe` says what it says of the input, apart from the segments' offsets and
decode times: the same brands, `FastStart`, time scale, duration and tracks (samples, chunks and their offsets included, so that chunk offsets no longer
point to the samples when a box before them was dropped), the same number of segments, each with the same track, durations, sample count, size and
composition offset.  The decode time of a segment is the given one, cut to 32 bits for a `tfdt` of version 0, if its fragment has a `tfdt`, and
otherwise what it was; the offsets are those of the `moof` boxes in the output (`Boxes.summary` of the edited row).  If `Probe` fails on the input, it fails with
the same error on the output. -/
theorem edit_then_probe (B : Boxes) (hok : B.Ok true true {}) (hraw : B.Unknown true {}) (hlen : (B.ser true {}).length ≤ 2 ^ 48) (time : Option Nat)
    (ht : ∀ t, time = some t → t < 2 ^ 64 - 1) (names : List Bytes) (hn : ∀ s ∈ names, NoComma s)
    (hd : ∀ t ∈ consulted, ¬ ToDrop names t) (hk : ¬ ToDrop names tKeys)
    (fuel : Nat) (hfuel : (B.forest true {} 0).count < fuel) (fuel' : Nat) (hf' : ((B.edit (ToDrop names) time).forest true {} 0).count < fuel')
    (pos pos' : Nat) :
    ∃ out, editFile noFaults (B.ser true {}) (Config.ofOptions time (joinComma names)) fuel = (.ok (), out) ∧
      SameOutcome time (fragments B) (probe BoxMap.std (B.ser true {}) fuel pos).1 (probe BoxMap.std out fuel' pos').1 ∧
      (probe BoxMap.std out fuel' pos').1 = (B.edit (ToDrop names) time).summary := by
  have hf : ¬ ToDrop names tFtyp := hd _ (by decide +kernel)
  obtain ⟨hE, hle⟩ := Boxes.Ok_edit (drop := ToDrop names) (time := time) (fun t e => Nat.lt_of_lt_of_le (ht t e) (by decide)) hf hk B true true true {} id hok
  have hp := probe_ser _ hE (Boxes.unknown_edit hf hk B _ _ hraw) (Nat.le_trans hle hlen) fuel' hf' pos'
  refine ⟨_, edit_boxes B hok hlen time ht names hn (Boxes.unknown_opaque B _ _ hraw) hf hk fuel hfuel, ?_, hp⟩
  rw [probe_ser B hok hraw hlen fuel hfuel pos, hp]
  exact summary_edit hd B hok

/-- **C87**, files without fragments — For a file without `moof` boxes at the root the two answers are the same. -/
theorem edit_then_probe_same (B : Boxes) (hok : B.Ok true true {}) (hraw : B.Unknown true {}) (hlen : (B.ser true {}).length ≤ 2 ^ 48) (time : Option Nat)
    (ht : ∀ t, time = some t → t < 2 ^ 64 - 1) (names : List Bytes) (hn : ∀ s ∈ names, NoComma s)
    (hd : ∀ t ∈ consulted, ¬ ToDrop names t) (hk : ¬ ToDrop names tKeys) (hmoof : fragments B = [])
    (fuel : Nat) (hfuel : (B.forest true {} 0).count < fuel) (fuel' : Nat) (hf' : ((B.edit (ToDrop names) time).forest true {} 0).count < fuel')
    (pos pos' : Nat) :
    ∃ out, editFile noFaults (B.ser true {}) (Config.ofOptions time (joinComma names)) fuel = (.ok (), out) ∧
      (probe BoxMap.std out fuel' pos').1 = (probe BoxMap.std (B.ser true {}) fuel pos).1 := by
  obtain ⟨out, h1, h2, -⟩ := edit_then_probe B hok hraw hlen time ht names hn hd hk fuel hfuel fuel' hf' pos pos'
  refine ⟨out, h1, ?_⟩
  rw [hmoof] at h2
  revert h2
  cases (probe BoxMap.std (B.ser true {}) fuel pos).1 with
  | ok a =>
    cases (probe BoxMap.std out fuel' pos').1 with
    | ok b =>
      intro ⟨e, h⟩
      have hs : b.segments = a.segments := by
        revert h
        cases a.segments with
        | nil => cases b.segments with
          | nil => exact fun _ => rfl
          | cons => exact fun h => h.elim
        | cons => exact fun h => by cases b.segments <;> exact h.elim
      rw [hs] at e
      rw [e]
    | _ => exact fun h => h.elim
  | err e =>
    cases (probe BoxMap.std out fuel' pos').1 with
    | err e' => exact fun h => congrArg _ (Eq.symm h)
    | _ => exact fun h => h.elim
  | panic => cases (probe BoxMap.std out fuel' pos').1 with
    | panic => exact fun _ => rfl
    | _ => exact fun h => h.elim
  | hang => cases (probe BoxMap.std out fuel' pos').1 with
    | hang => exact fun _ => rfl
    | _ => exact fun h => h.elim

/-! ## a case -/

/-- `free` and `moof` with `traf` with `tfhd` and `tfdt` -/
def freeFragment : Boxes :=
  .box { type := ⟨0x66, 0x72, 0x65, 0x65⟩ } Cat.bdFree [("Data", .slice [.uint 7])] .nil
    (.box { type := ⟨0x6d, 0x6f, 0x6f, 0x66⟩ } Cat.bdMoof []
      (.box { type := ⟨0x74, 0x72, 0x61, 0x66⟩ } Cat.bdTraf []
        (.box { type := ⟨0x74, 0x66, 0x68, 0x64⟩ } Cat.bdTfhd [Spec.fullBox 0 0 0 0, ("TrackID", .uint 3), ("BaseDataOffset", .uint 0),
            ("SampleDescriptionIndex", .uint 0), ("DefaultSampleDuration", .uint 0), ("DefaultSampleSize", .uint 0), ("DefaultSampleFlags", .uint 0)] .nil
          (.box { type := ⟨0x74, 0x66, 0x64, 0x74⟩ } Cat.bdTfdt [Spec.fullBox 0 0 0 0, ("BaseMediaDecodeTimeV0", .uint 9), ("BaseMediaDecodeTimeV1", .uint 0)] .nil
            .nil)) .nil) .nil)

set_option maxRecDepth 4000 in
theorem freeFragment_ok : freeFragment.Ok true true {} ∧ freeFragment.Unknown true {} :=
  ⟨⟨by decide +kernel, by decide, rfl, by decide +kernel, trivial,
    by decide +kernel, by decide, rfl, by decide +kernel,
      ⟨by decide +kernel, by decide, rfl, by decide +kernel,
        ⟨by decide +kernel, by decide, rfl, by decide +kernel, trivial, by decide +kernel, by decide, rfl, by decide +kernel, trivial, trivial⟩, trivial⟩, trivial⟩,
   ⟨trivial, ⟨⟨trivial, trivial, trivial⟩, trivial⟩, trivial⟩⟩

/-- the hypotheses are met, and what `Probe` says before and after `-drop free,xxxx -base_media_decode_time 258` -/
example : (freeFragment.ser true {}).length = 57 ∧ (∀ s ∈ editExNames, NoComma s) ∧ (∀ t ∈ consulted, ¬ ToDrop editExNames t) ∧ ¬ ToDrop editExNames tKeys ∧
    (match freeFragment.summary with
      | .ok i => i.segments == [{ trackID := 3, moofOffset := 9, baseMediaDecodeTime := 9, defaultSampleDuration := 0 }]
      | _ => false) = true ∧
    (match (freeFragment.edit (ToDrop editExNames) (some 258)).summary with
      | .ok i => i.segments == [{ trackID := 3, moofOffset := 0, baseMediaDecodeTime := 258, defaultSampleDuration := 0 }]
      | _ => false) = true := by
  refine ⟨by decide +kernel, by unfold NoComma; decide, by decide +kernel, by decide, by decide +kernel, by decide +kernel⟩

/-- a file without fragments -/
example : fragments initBoxes = [] ∧ fragments freeFragment ≠ [] := ⟨by decide +kernel, by simp only [freeFragment, fragments, if_pos (show (⟨0x6d, 0x6f, 0x6f, 0x66⟩ : BoxType) = fourCC "moof" by decide +kernel)]; split <;> simp⟩

end Mp4.Props
