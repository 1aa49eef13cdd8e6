import Verif.Lemmas.DivideRow

/-!
# `mp4tool divide`

C63: the tracks that are found, and what is written for them.
-/

namespace Mp4.Props

open Mp4.Tool

variable {d : Bytes} {fuel : Nat}

/-! ## The tracks -/

/-- The path of a sample entry. -/
def entryNames (s : String) : List String := ["mdia", "minf", "stbl", "stsd", s]

/-- There is such a box below. -/
def Has (d : Bytes) (fuel : Nat) (q : List String) (bi : BoxInfo) : Prop :=
  ∃ b l p, (extractBoxes BoxMap.std d fuel (some bi) [q.map fourcc] 0).1 = .ok (b :: l, p)

/-- There is none. -/
def Lacks (d : Bytes) (fuel : Nat) (q : List String) (bi : BoxInfo) : Prop :=
  ∃ p, (extractBoxes BoxMap.std d fuel (some bi) [q.map fourcc] 0).1 = .ok ([], p)

/-- The first of these sample entries that a track has says what the track is: `avc1`, `mp4a`, `encv`, `enca`.  Width and height are those in
the first sample entry for video. -/
inductive KindIn (d : Bytes) (fuel : Nat) (bi : BoxInfo) : Option (Kind × Nat × Nat) → Prop
  | avc1 {e l} : below d fuel (entryNames "avc1") bi = e :: l → KindIn d fuel bi (some (.video, e.uint "Width", e.uint "Height"))
  | mp4a : Lacks d fuel (entryNames "avc1") bi → Has d fuel (entryNames "mp4a") bi → KindIn d fuel bi (some (.audio, 0, 0))
  | encv {e l} : Lacks d fuel (entryNames "avc1") bi → Lacks d fuel (entryNames "mp4a") bi → below d fuel (entryNames "encv") bi = e :: l →
    KindIn d fuel bi (some (.encVideo, e.uint "Width", e.uint "Height"))
  | enca : Lacks d fuel (entryNames "avc1") bi → Lacks d fuel (entryNames "mp4a") bi → Lacks d fuel (entryNames "encv") bi →
    Has d fuel (entryNames "enca") bi → KindIn d fuel bi (some (.encAudio, 0, 0))
  | other : Lacks d fuel (entryNames "avc1") bi → Lacks d fuel (entryNames "mp4a") bi → Lacks d fuel (entryNames "encv") bi →
    Lacks d fuel (entryNames "enca") bi → KindIn d fuel bi none

/-- What the tool is to know about a `trak` box: it has one `tkhd` and one `mdhd`; `none` if the track is of another kind. -/
def IsTrack (d : Bytes) (fuel : Nat) (bi : BoxInfo) (o : Option DTrack) : Prop :=
  ∃ tkhd mdhd k, below d fuel ["tkhd"] bi = [tkhd] ∧ below d fuel ["mdia", "mdhd"] bi = [mdhd] ∧ KindIn d fuel bi k ∧
    o = k.map fun x => ⟨tkhd.uint "TrackID", x.1, mdhd.uint "Timescale", x.2.1, x.2.2⟩

theorem decodeAll_nil {bis : List BoxInfo} {ctx : Ctx} {pos p : Nat} (h : decodeAll BoxMap.std d ctx bis pos = (.ok [], p)) : bis = [] := by
  cases bis with
  | nil => rfl
  | cons b l =>
    exfalso
    unfold decodeAll at h
    obtain ⟨-, s1, -, h⟩ := bind_ok_inv h
    obtain ⟨x, s2, -, h⟩ := bind_ok_inv h
    obtain ⟨y, s3, -, h⟩ := bind_ok_inv h
    cases h

theorem lacks_of {q : List String} {bi : BoxInfo} {pos p : Nat}
    (h : extractBoxWithPayload BoxMap.std d fuel (some bi) (q.map fourcc) pos = (.ok [], p)) : Lacks d fuel q bi := by
  unfold extractBoxWithPayload extractBoxesWithPayload at h
  obtain ⟨⟨bis, par⟩, s1, h1, h2⟩ := bind_ok_inv h
  have e := decodeAll_nil h2
  subst e
  refine ⟨par, ?_⟩
  rw [← (extractBoxes_anywhere d fuel bi [q.map fourcc] pos).1, h1]

theorem videoEntry_inv {bi : BoxInfo} {s : String} {tr : DTrack} {pos p : Nat} {o : Option DTrack}
    (h : videoEntry d fuel bi (fourcc s) tr pos = (.ok o, p)) :
    (o = none ∧ Lacks d fuel (entryNames s) bi) ∨
    ∃ e l, below d fuel (entryNames s) bi = e :: l ∧ o = some { tr with width := e.uint "Width", height := e.uint "Height" } := by
  unfold videoEntry at h
  obtain ⟨bs, s1, h1, h2⟩ := bind_ok_inv h
  have hq : entryPath (fourcc s) = (entryNames s).map fourcc := by
    unfold entryPath entryNames
    simp only [List.map_cons, List.map_nil, List.cons.injEq, and_true]
    decide
  rw [hq] at h1
  match bs, h1, h2 with
  | [], h1, h2 =>
    cases h2
    exact .inl ⟨rfl, lacks_of h1⟩
  | (b, v) :: l, h1, h2 =>
    right
    simp only at h2
    cases hx : v.assert "VisualSampleEntry" with
    | none => rw [hx] at h2; cases h2
    | some e =>
      rw [hx] at h2
      cases h2
      refine ⟨e, l.map (·.2.sv), ?_, rfl⟩
      rw [below_eq (q := entryNames s) rfl (l := (b, v) :: l) (by rw [← extract_anywhere d fuel bi _ pos, h1]), assert_sv hx]
      rfl

theorem audioEntry_inv {bi : BoxInfo} {s : String} {tr : DTrack} {pos p : Nat} {o : Option DTrack}
    (h : audioEntry d fuel bi (fourcc s) tr pos = (.ok o, p)) :
    (o = none ∧ Lacks d fuel (entryNames s) bi) ∨ (o = some tr ∧ Has d fuel (entryNames s) bi) := by
  unfold audioEntry at h
  obtain ⟨⟨bis, par⟩, s1, h1, h2⟩ := bind_ok_inv h
  have hq : entryPath (fourcc s) = (entryNames s).map fourcc := by
    unfold entryPath entryNames
    simp only [List.map_cons, List.map_nil, List.cons.injEq, and_true]
    decide
  rw [hq] at h1
  have h3 := (extractBoxes_anywhere d fuel bi [(entryNames s).map fourcc] pos).1
  rw [h1] at h3
  cases bis with
  | nil => cases h2; exact .inl ⟨rfl, par, h3.symm⟩
  | cons b l => cases h2; exact .inr ⟨rfl, b, l, par, h3.symm⟩

theorem kindOf_inv {bi : BoxInfo} {id ts pos p : Nat} {o : Option DTrack} (h : kindOf d fuel bi id ts pos = (.ok o, p)) :
    ∃ k, KindIn d fuel bi k ∧ o = k.map fun x => ⟨id, x.1, ts, x.2.1, x.2.2⟩ := by
  unfold kindOf at h
  obtain ⟨o1, s1, h1, h⟩ := bind_ok_inv h
  rcases videoEntry_inv (s := "avc1") h1 with ⟨rfl, l1⟩ | ⟨e, l, he, rfl⟩
  · obtain ⟨o2, s2, h2, h⟩ := bind_ok_inv h
    rcases audioEntry_inv (s := "mp4a") h2 with ⟨rfl, l2⟩ | ⟨rfl, he⟩
    · obtain ⟨o3, s3, h3, h⟩ := bind_ok_inv h
      rcases videoEntry_inv (s := "encv") h3 with ⟨rfl, l3⟩ | ⟨e, l, he, rfl⟩
      · rcases audioEntry_inv (s := "enca") h with ⟨rfl, l4⟩ | ⟨rfl, he⟩
        · exact ⟨_, .other l1 l2 l3 l4, rfl⟩
        · exact ⟨_, .enca l1 l2 l3 he, rfl⟩
      · cases h
        exact ⟨_, .encv l1 l2 he, rfl⟩
    · cases h
      exact ⟨_, .mp4a l1 he, rfl⟩
  · cases h
    exact ⟨_, .avc1 he, rfl⟩

theorem divTrack_inv {bi : BoxInfo} {pos p : Nat} {o : Option DTrack} (h : divTrack d fuel bi pos = (.ok o, p)) : IsTrack d fuel bi o := by
  unfold divTrack at h
  obtain ⟨bs, s1, h1, h⟩ := bind_ok_inv h
  match bs, h1, h with
  | [], _, h => cases h
  | _ :: _ :: _, _, h => cases h
  | [(b, v)], h1, h =>
    simp only at h
    cases hx : v.assert "Tkhd" with
    | none => rw [hx] at h; cases h
    | some tkhd =>
      rw [hx] at h
      obtain ⟨bs2, s2, h2, h⟩ := bind_ok_inv h
      match bs2, h2, h with
      | [], _, h => cases h
      | _ :: _ :: _, _, h => cases h
      | [(b2, v2)], h2, h =>
        simp only at h
        cases hy : v2.assert "Mdhd" with
        | none => rw [hy] at h; cases h
        | some mdhd =>
          rw [hy] at h
          obtain ⟨k, hk, rfl⟩ := kindOf_inv h
          refine ⟨tkhd, mdhd, k, ?_, ?_, hk, rfl⟩
          · rw [below_eq (q := ["tkhd"]) (q' := [tTkhd]) (by decide) (l := [(b, v)]) (by rw [← extract_anywhere d fuel bi _ pos, h1]), assert_sv hx]
            rfl
          · rw [below_eq (q := ["mdia", "mdhd"]) (q' := [tMdia, tMdhd]) (by decide) (l := [(b2, v2)]) (by rw [← extract_anywhere d fuel bi _ s1, h2]), assert_sv hy]
            rfl

theorem divLoop_inv : ∀ (bis : List BoxInfo) (ts0 ts : List DTrack) (pos p : Nat), divLoop d fuel bis ts0 pos = (.ok ts, p) →
    ∃ l : List (BoxInfo × Option DTrack), l.map (·.1) = bis ∧ (∀ x ∈ l, IsTrack d fuel x.1 x.2) ∧ ts = (l.filterMap (·.2)).foldl setTrack ts0
  | [], ts0, ts, pos, p, h => by
    cases h
    exact ⟨[], rfl, by simp, rfl⟩
  | bi :: bis, ts0, ts, pos, p, h => by
    rw [divLoop] at h
    obtain ⟨o, s1, h1, h2⟩ := bind_ok_inv h
    have ht := divTrack_inv h1
    cases o with
    | none =>
      obtain ⟨l, e1, e2, e3⟩ := divLoop_inv bis _ _ _ _ h2
      exact ⟨(bi, none) :: l, by rw [List.map_cons, e1], List.forall_mem_cons.2 ⟨ht, e2⟩, e3⟩
    | some t =>
      obtain ⟨l, e1, e2, e3⟩ := divLoop_inv bis _ _ _ _ h2
      exact ⟨(bi, some t) :: l, by rw [List.map_cons, e1], List.forall_mem_cons.2 ⟨ht, e2⟩, e3⟩

/-- no two tracks with the same ID -/
def IdsDiffer (l : List DTrack) : Prop := l.Pairwise fun a b => a.id ≠ b.id

theorem mem_setTrack {l : List DTrack} (hl : IdsDiffer l) (t u : DTrack) : u ∈ setTrack l t ↔ u = t ∨ (u ∈ l ∧ u.id ≠ t.id) := by
  induction l with
  | nil => simp [setTrack]
  | cons a l ih =>
    obtain ⟨h1, h2⟩ := List.pairwise_cons.1 hl
    unfold setTrack
    split
    · next h =>
      rw [List.mem_cons, List.mem_cons]
      refine or_congr Iff.rfl ⟨fun hu => ⟨.inr hu, fun e => h1 u hu (h.trans e.symm)⟩, fun hu => ?_⟩
      rcases hu.1 with e | e
      · rw [e] at hu; exact absurd h hu.2
      · exact e
    · next h =>
      rw [List.mem_cons, List.mem_cons, ih h2]
      constructor
      · rintro (e | e | ⟨e, h'⟩)
        · subst e; exact .inr ⟨.inl rfl, h⟩
        · exact .inl e
        · exact .inr ⟨.inr e, h'⟩
      · rintro (e | ⟨e | e, h'⟩)
        · exact .inr (.inl e)
        · exact .inl e
        · exact .inr (.inr ⟨e, h'⟩)

theorem ids_setTrack {l : List DTrack} (hl : IdsDiffer l) (t : DTrack) : IdsDiffer (setTrack l t) := by
  induction l with
  | nil => exact List.pairwise_singleton _ _
  | cons a l ih =>
    obtain ⟨h1, h2⟩ := List.pairwise_cons.1 hl
    unfold setTrack
    split
    · next h => exact List.pairwise_cons.2 ⟨fun u hu => by rw [← h]; exact h1 u hu, h2⟩
    · next h =>
      refine List.pairwise_cons.2 ⟨fun u hu => ?_, ih h2⟩
      rcases (mem_setTrack h2 t u).1 hu with e | e
      · rw [e]; exact h
      · exact h1 u e.1

theorem ids_fold {l : List DTrack} (hl : IdsDiffer l) : ∀ ks : List DTrack, IdsDiffer (ks.foldl setTrack l)
  | [] => hl
  | k :: ks => by
    rw [List.foldl_cons]
    exact ids_fold (ids_setTrack hl k) ks

theorem mem_fold : ∀ (ks l : List DTrack), IdsDiffer l → ∀ t,
    (t ∈ ks.foldl setTrack l ↔ (∃ a b, ks = a ++ t :: b ∧ ∀ u ∈ b, u.id ≠ t.id) ∨ (t ∈ l ∧ ∀ u ∈ ks, u.id ≠ t.id))
  | [], l, _, t => by simp
  | k :: ks, l, hl, t => by
    rw [List.foldl_cons, mem_fold ks _ (ids_setTrack hl k), mem_setTrack hl]
    constructor
    · rintro (⟨a, b, e, h⟩ | ⟨e | ⟨e, h'⟩, h⟩)
      · exact .inl ⟨k :: a, b, by rw [e]; rfl, h⟩
      · subst e; exact .inl ⟨[], ks, rfl, h⟩
      · exact .inr ⟨e, List.forall_mem_cons.2 ⟨fun e => h' e.symm, h⟩⟩
    · rintro (⟨a, b, e, h⟩ | ⟨e, h⟩)
      · cases a with
        | nil => cases e; exact .inr ⟨.inl rfl, h⟩
        | cons x a => cases e; exact .inl ⟨a, b, rfl, h⟩
      · obtain ⟨h1, h2⟩ := List.forall_mem_cons.1 h
        exact .inr ⟨.inr ⟨e, fun e => h1 e.symm⟩, h2⟩

/-- **C63 (the tracks).**  When the tool has found the tracks, every `trak` box in `moov` has one `tkhd` and one `mdhd`; a track is one of those
boxes that has one of the four sample entries, with the ID, the timescale, the kind and the width and height that are in the file; and of several
with the same ID the last one counts. -/
theorem divTracks_found {ts : List DTrack} {pos p : Nat} (h : divTracks d fuel pos = (.ok ts, p)) :
    ∃ l : List (BoxInfo × Option DTrack),
      (∃ par, (extractBoxes BoxMap.std d fuel none [[fourcc "moov", fourcc "trak"]] pos).1 = .ok (l.map (·.1), par)) ∧
      (∀ x ∈ l, IsTrack d fuel x.1 x.2) ∧ IdsDiffer ts ∧
      ∀ t, t ∈ ts ↔ ∃ a b, l.filterMap (·.2) = a ++ t :: b ∧ ∀ u ∈ b, u.id ≠ t.id := by
  unfold divTracks at h
  obtain ⟨⟨bis, par⟩, s1, h1, h2⟩ := bind_ok_inv h
  obtain ⟨l, e1, e2, e3⟩ := divLoop_inv _ _ _ _ _ h2
  refine ⟨l, ⟨par, ?_⟩, e2, ?_, fun t => ?_⟩
  · rw [e1, show fourcc "moov" = tMoov by decide, show fourcc "trak" = tTrak by decide, h1]
  · rw [e3]
    exact ids_fold List.Pairwise.nil _
  · rw [e3, mem_fold _ _ List.Pairwise.nil]
    simp

/-! ## What is written -/

theorem moofs_known {F : Forest} {isRoot : Bool} {path : List BoxType} {ctx : Ctx} {pos total : Nat} (h : Laid d F isRoot path ctx pos total)
    (he : Expected d fuel F) : ∀ b ∈ row F, Named ["moof"] b → trackIn d fuel ["traf", "tfhd"] b ≠ none := by
  induction F generalizing ctx pos total with
  | nil => intro b hb; simp [row] at hb
  | leaf bi rest ih =>
    intro b hb
    rcases List.mem_cons.1 hb with rfl | hb
    · exact he.2.2.1
    · exact ih h.2.2 he.2.2.2 b hb
  | node bi n kids rest _ ih =>
    intro b hb
    rcases List.mem_cons.1 hb with rfl | hb
    · intro hn
      rw [named_moof, h.2.1] at hn
      exact absurd hn (by decide)
    · exact ih h.2.2.2.2 he.2.2 b hb

theorem run_inv (hd : d.length ≤ maxAlloc) {ts : List DTrack} (hs : ts.Pairwise fun a b => a.id ≠ b.id ∧ a.kind ≠ b.kind) {pos : Nat} {s : DivSt}
    (h : divideRun ts d fuel pos = (.ok (), s)) :
    ∃ F, Laid d F true [] {} 0 0 ∧ Expected d fuel F ∧
      (SaneSizes F → ∀ t ∈ ts, s.inits t.kind = initSegment d fuel t F ∧
        s.durs t.id = (segments d fuel t (row F)).map (·.1) ∧
        s.rates t.id = mdatRates d fuel t (row F) ∧
        ∀ k, s.segs t.kind k = (((segments d fuel t (row F))[k]?).map (·.2)).getD []) := by
  unfold divideRun at h
  generalize hr : readBoxStructure BoxMap.std d (divideTool ts d fuel) fuel () ⟨pos, .created, []⟩ = x at h
  match x, hr, h with
  | (.err e, st), hr, h =>
    simp only at h
    split at h <;> cases h
  | (.panic, st), hr, h => cases h
  | (.hang, st), hr, h => cases h
  | (.ok vs, st), hr, h =>
    cases h
    unfold readBoxStructure at hr
    obtain ⟨x, s1, h1, h2⟩ := bind_ok_inv hr
    have e : s1 = ⟨0, .created, []⟩ := by
      rw [liftP_run] at h1
      unfold seekStartP at h1
      rw [if_neg (by decide)] at h1
      cases h1
      rfl
    rw [e] at h2
    obtain ⟨F, f1, f2, f3, f4⟩ := Tool.rows hd hs fuel _ _ _ _ _ _ _ _ (by decide) h2
    refine ⟨F, f1, f2, fun hF t ht => ?_⟩
    have hh : Holds t .created ⟨[], [], []⟩ := ⟨rfl, rfl, fun k => rfl, fun l x e => by simp at e, rfl⟩
    obtain ⟨h3, -⟩ := (f4 hF).2.all t ht _ hh
    have hm := moofs_known f1 f2
    have e2 := media_segments (d := d) (fuel := fuel) t (row F) (DivSt.created.curr) [] hm
    have e3 : addLast [] (((((row F).takeWhile fun b => ¬ Named ["moof"] b).filter fun b => Named ["mdat"] b).map (rawBytes d)).flatten) = [] := rfl
    rw [e3, ite_self, List.nil_append] at e2
    rw [show (⟨0, DivSt.created, []⟩ : TSt DivSt (Option Sizes)).user.curr = DivSt.created.curr from rfl, e2] at h3
    have e4 := media_rates (d := d) (fuel := fuel) t (row F) (DivSt.created.curr) [] hm
    rw [if_neg (fun h' => h'.2 rfl), List.nil_append] at e4
    exact ⟨h3.init, h3.durs, h3.rates.trans e4, h3.segs⟩

/-- **C63 (what is written).**  When `divide` has succeeded on a file whose tracks are of different kinds: the file is a row of the boxes that it
expects; and (if no box is shorter than its header) for every track `init.mp4` is the initialization segment, the segments are the fragments of
the track in the order of the file, each with its `moof` and the `mdat`s behind it, their durations are noted, and so are the
sizes of the `mdat`s. -/
theorem divide_writes (hd : d.length ≤ maxAlloc) {ts : List DTrack} {s : DivSt} (h : divide d fuel = (.ok (), ts, s))
    (hk : ts.Pairwise fun a b => a.kind ≠ b.kind) :
    (∃ F, Laid d F true [] {} 0 0 ∧ Expected d fuel F) ∧
    ∀ F, Laid d F true [] {} 0 0 → SaneSizes F → ∀ t ∈ ts,
      s.inits t.kind = initSegment d fuel t F ∧
      s.durs t.id = (segments d fuel t (row F)).map (·.1) ∧
      s.rates t.id = mdatRates d fuel t (row F) ∧
      ∀ k, s.segs t.kind k = (((segments d fuel t (row F))[k]?).map (·.2)).getD [] := by
  unfold divide at h
  generalize hr : divTracks d fuel 0 = x at h
  match x, hr, h with
  | (.err e, p), hr, h => cases h
  | (.panic, p), hr, h => cases h
  | (.hang, p), hr, h => cases h
  | (.ok us, p), hr, h =>
    simp only [Prod.mk.injEq] at h
    obtain ⟨h1, h2, h3⟩ := h
    subst h2
    obtain ⟨-, -, -, hid, -⟩ := divTracks_found hr
    obtain ⟨F, f1, f2, f3⟩ := run_inv hd (List.Pairwise.imp₂ (fun _ _ a b => ⟨a, b⟩) hid hk) (show divideRun us d fuel p = (.ok (), s) from Prod.ext h1 h3)
    refine ⟨⟨F, f1, f2⟩, fun G g1 g2 => ?_⟩
    rw [laid_unique g1 f1] at g2 ⊢
    exact f3 g2

/-- The same for any order in which the tracks are processed (the loops of the program are over a map). -/
theorem divide_any_order (hd : d.length ≤ maxAlloc) {ts : List DTrack} (hs : ts.Pairwise fun a b => a.id ≠ b.id ∧ a.kind ≠ b.kind) {pos : Nat} {s : DivSt}
    (h : divideRun ts d fuel pos = (.ok (), s)) {F : Forest} (hF : Laid d F true [] {} 0 0) (hz : SaneSizes F) {t : DTrack} (ht : t ∈ ts) :
    s.inits t.kind = initSegment d fuel t F ∧
    s.durs t.id = (segments d fuel t (row F)).map (·.1) ∧
    s.rates t.id = mdatRates d fuel t (row F) ∧
    ∀ k, s.segs t.kind k = (((segments d fuel t (row F))[k]?).map (·.2)).getD [] := by
  obtain ⟨G, f1, f2, f3⟩ := run_inv hd hs h
  rw [laid_unique hF f1] at hz ⊢
  exact f3 hz t ht

/-! ## Files to try it on -/

/-- An AVC track (ID 1) and an AAC track (ID 2), and three fragments: of track 1 with 3 samples of 20 ticks, of track 2 with samples of 7 and 9
ticks (and two `mdat`s), and of track 1 with one sample of 30 ticks. -/
def divFile : Bytes := [0, 0, 0, 16, 102, 116, 121, 112, 105, 115, 111, 53, 0, 0, 0, 0, 0, 0, 2, 110, 109, 111, 111, 118, 0, 0, 0, 108,
  109, 118, 104, 100, 0, 0, 0, 0, 0, 0, 0, 0, 0, 0, 0, 0, 0, 0, 3, 232, 0, 0, 0, 0, 0, 0, 0, 0, 0, 0, 0, 0, 0, 0, 0, 0, 0, 0, 0, 0, 0, 0,
  0, 0, 0, 0, 0, 0, 0, 0, 0, 0, 0, 0, 0, 0, 0, 0, 0, 0, 0, 0, 0, 0, 0, 0, 0, 0, 0, 0, 0, 0, 0, 0, 0, 0, 0, 0, 0, 0, 0, 0, 0, 0, 0, 0, 0,
  0, 0, 0, 0, 0, 0, 0, 0, 0, 0, 0, 0, 0, 0, 0, 0, 0, 0, 0, 1, 2, 116, 114, 97, 107, 0, 0, 0, 92, 116, 107, 104, 100, 0, 0, 0, 0, 0, 0, 0,
  0, 0, 0, 0, 0, 0, 0, 0, 1, 0, 0, 0, 0, 0, 0, 0, 0, 0, 0, 0, 0, 0, 0, 0, 0, 0, 0, 0, 0, 0, 0, 0, 0, 0, 0, 0, 0, 0, 0, 0, 0, 0, 0, 0, 0,
  0, 0, 0, 0, 0, 0, 0, 0, 0, 0, 0, 0, 0, 0, 0, 0, 0, 0, 0, 0, 0, 0, 0, 0, 0, 0, 0, 0, 0, 0, 0, 0, 0, 0, 0, 158, 109, 100, 105, 97, 0, 0,
  0, 32, 109, 100, 104, 100, 0, 0, 0, 0, 0, 0, 0, 0, 0, 0, 0, 0, 0, 0, 2, 88, 0, 0, 0, 0, 0, 0, 0, 0, 0, 0, 0, 118, 109, 105, 110, 102,
  0, 0, 0, 110, 115, 116, 98, 108, 0, 0, 0, 102, 115, 116, 115, 100, 0, 0, 0, 0, 0, 0, 0, 1, 0, 0, 0, 86, 97, 118, 99, 49, 0, 0, 0, 0, 0,
  0, 0, 1, 0, 0, 0, 0, 0, 0, 0, 0, 0, 0, 0, 0, 0, 0, 0, 0, 2, 128, 1, 104, 0, 0, 0, 0, 0, 0, 0, 0, 0, 0, 0, 0, 0, 1, 0, 0, 0, 0, 0, 0, 0,
  0, 0, 0, 0, 0, 0, 0, 0, 0, 0, 0, 0, 0, 0, 0, 0, 0, 0, 0, 0, 0, 0, 0, 0, 0, 0, 24, 255, 255, 0, 0, 0, 208, 116, 114, 97, 107, 0, 0, 0,
  92, 116, 107, 104, 100, 0, 0, 0, 0, 0, 0, 0, 0, 0, 0, 0, 0, 0, 0, 0, 2, 0, 0, 0, 0, 0, 0, 0, 0, 0, 0, 0, 0, 0, 0, 0, 0, 0, 0, 0, 0, 0,
  0, 0, 0, 0, 0, 0, 0, 0, 0, 0, 0, 0, 0, 0, 0, 0, 0, 0, 0, 0, 0, 0, 0, 0, 0, 0, 0, 0, 0, 0, 0, 0, 0, 0, 0, 0, 0, 0, 0, 0, 0, 0, 0, 0, 0,
  0, 0, 0, 0, 0, 108, 109, 100, 105, 97, 0, 0, 0, 32, 109, 100, 104, 100, 0, 0, 0, 0, 0, 0, 0, 0, 0, 0, 0, 0, 0, 0, 3, 232, 0, 0, 0, 0,
  0, 0, 0, 0, 0, 0, 0, 68, 109, 105, 110, 102, 0, 0, 0, 60, 115, 116, 98, 108, 0, 0, 0, 52, 115, 116, 115, 100, 0, 0, 0, 0, 0, 0, 0, 1,
  0, 0, 0, 36, 109, 112, 52, 97, 0, 0, 0, 0, 0, 0, 0, 1, 0, 0, 0, 0, 0, 0, 0, 0, 0, 2, 0, 16, 0, 0, 0, 0, 172, 68, 0, 0, 0, 0, 0, 40,
  109, 118, 101, 120, 0, 0, 0, 32, 116, 114, 101, 120, 0, 0, 0, 0, 0, 0, 0, 1, 0, 0, 0, 1, 0, 0, 0, 0, 0, 0, 0, 0, 0, 0, 0, 0, 0, 0, 0,
  52, 109, 111, 111, 102, 0, 0, 0, 44, 116, 114, 97, 102, 0, 0, 0, 20, 116, 102, 104, 100, 0, 0, 0, 8, 0, 0, 0, 1, 0, 0, 0, 20, 0, 0, 0,
  16, 116, 114, 117, 110, 0, 0, 0, 0, 0, 0, 0, 3, 0, 0, 0, 11, 109, 100, 97, 116, 1, 2, 3, 0, 0, 0, 56, 109, 111, 111, 102, 0, 0, 0, 48,
  116, 114, 97, 102, 0, 0, 0, 16, 116, 102, 104, 100, 0, 0, 0, 0, 0, 0, 0, 2, 0, 0, 0, 24, 116, 114, 117, 110, 0, 0, 1, 0, 0, 0, 0, 2, 0,
  0, 0, 7, 0, 0, 0, 9, 0, 0, 0, 9, 109, 100, 97, 116, 4, 0, 0, 0, 10, 109, 100, 97, 116, 5, 6, 0, 0, 0, 52, 109, 111, 111, 102, 0, 0, 0,
  44, 116, 114, 97, 102, 0, 0, 0, 20, 116, 102, 104, 100, 0, 0, 0, 8, 0, 0, 0, 1, 0, 0, 0, 30, 0, 0, 0, 16, 116, 114, 117, 110, 0, 0, 0,
  0, 0, 0, 0, 1, 0, 0, 0, 9, 109, 100, 97, 116, 7]
/-- A `styp` box. -/
def stypFile : Bytes := [0, 0, 0, 16, 115, 116, 121, 112, 105, 115, 111, 53, 0, 0, 0, 0]
/-- A fragment of an AVC track without `trun`. -/
def noRunFile : Bytes := [0, 0, 1, 10, 109, 111, 111, 118, 0, 0, 1, 2, 116, 114, 97, 107, 0, 0, 0, 92, 116, 107, 104, 100, 0, 0, 0, 0, 0,
  0, 0, 0, 0, 0, 0, 0, 0, 0, 0, 1, 0, 0, 0, 0, 0, 0, 0, 0, 0, 0, 0, 0, 0, 0, 0, 0, 0, 0, 0, 0, 0, 0, 0, 0, 0, 0, 0, 0, 0, 0, 0, 0, 0, 0,
  0, 0, 0, 0, 0, 0, 0, 0, 0, 0, 0, 0, 0, 0, 0, 0, 0, 0, 0, 0, 0, 0, 0, 0, 0, 0, 0, 0, 0, 0, 0, 0, 0, 0, 0, 0, 0, 158, 109, 100, 105, 97,
  0, 0, 0, 32, 109, 100, 104, 100, 0, 0, 0, 0, 0, 0, 0, 0, 0, 0, 0, 0, 0, 0, 2, 88, 0, 0, 0, 0, 0, 0, 0, 0, 0, 0, 0, 118, 109, 105, 110,
  102, 0, 0, 0, 110, 115, 116, 98, 108, 0, 0, 0, 102, 115, 116, 115, 100, 0, 0, 0, 0, 0, 0, 0, 1, 0, 0, 0, 86, 97, 118, 99, 49, 0, 0, 0,
  0, 0, 0, 0, 1, 0, 0, 0, 0, 0, 0, 0, 0, 0, 0, 0, 0, 0, 0, 0, 0, 2, 128, 1, 104, 0, 0, 0, 0, 0, 0, 0, 0, 0, 0, 0, 0, 0, 1, 0, 0, 0, 0, 0,
  0, 0, 0, 0, 0, 0, 0, 0, 0, 0, 0, 0, 0, 0, 0, 0, 0, 0, 0, 0, 0, 0, 0, 0, 0, 0, 0, 0, 24, 255, 255, 0, 0, 0, 32, 109, 111, 111, 102, 0,
  0, 0, 24, 116, 114, 97, 102, 0, 0, 0, 16, 116, 102, 104, 100, 0, 0, 0, 0, 0, 0, 0, 1]
/-- `mfra` inside `moov`. -/
def moovMfraFile : Bytes := [0, 0, 1, 18, 109, 111, 111, 118, 0, 0, 1, 2, 116, 114, 97, 107, 0, 0, 0, 92, 116, 107, 104, 100, 0, 0, 0, 0,
  0, 0, 0, 0, 0, 0, 0, 0, 0, 0, 0, 1, 0, 0, 0, 0, 0, 0, 0, 0, 0, 0, 0, 0, 0, 0, 0, 0, 0, 0, 0, 0, 0, 0, 0, 0, 0, 0, 0, 0, 0, 0, 0, 0, 0,
  0, 0, 0, 0, 0, 0, 0, 0, 0, 0, 0, 0, 0, 0, 0, 0, 0, 0, 0, 0, 0, 0, 0, 0, 0, 0, 0, 0, 0, 0, 0, 0, 0, 0, 0, 0, 0, 0, 158, 109, 100, 105,
  97, 0, 0, 0, 32, 109, 100, 104, 100, 0, 0, 0, 0, 0, 0, 0, 0, 0, 0, 0, 0, 0, 0, 2, 88, 0, 0, 0, 0, 0, 0, 0, 0, 0, 0, 0, 118, 109, 105,
  110, 102, 0, 0, 0, 110, 115, 116, 98, 108, 0, 0, 0, 102, 115, 116, 115, 100, 0, 0, 0, 0, 0, 0, 0, 1, 0, 0, 0, 86, 97, 118, 99, 49, 0,
  0, 0, 0, 0, 0, 0, 1, 0, 0, 0, 0, 0, 0, 0, 0, 0, 0, 0, 0, 0, 0, 0, 0, 2, 128, 1, 104, 0, 0, 0, 0, 0, 0, 0, 0, 0, 0, 0, 0, 0, 1, 0, 0, 0,
  0, 0, 0, 0, 0, 0, 0, 0, 0, 0, 0, 0, 0, 0, 0, 0, 0, 0, 0, 0, 0, 0, 0, 0, 0, 0, 0, 0, 0, 0, 24, 255, 255, 0, 0, 0, 8, 109, 102, 114, 97]
/-- Two AVC tracks. -/
def twinFile : Bytes := [0, 0, 2, 12, 109, 111, 111, 118, 0, 0, 1, 2, 116, 114, 97, 107, 0, 0, 0, 92, 116, 107, 104, 100, 0, 0, 0, 0, 0,
  0, 0, 0, 0, 0, 0, 0, 0, 0, 0, 1, 0, 0, 0, 0, 0, 0, 0, 0, 0, 0, 0, 0, 0, 0, 0, 0, 0, 0, 0, 0, 0, 0, 0, 0, 0, 0, 0, 0, 0, 0, 0, 0, 0, 0,
  0, 0, 0, 0, 0, 0, 0, 0, 0, 0, 0, 0, 0, 0, 0, 0, 0, 0, 0, 0, 0, 0, 0, 0, 0, 0, 0, 0, 0, 0, 0, 0, 0, 0, 0, 0, 0, 158, 109, 100, 105, 97,
  0, 0, 0, 32, 109, 100, 104, 100, 0, 0, 0, 0, 0, 0, 0, 0, 0, 0, 0, 0, 0, 0, 2, 88, 0, 0, 0, 0, 0, 0, 0, 0, 0, 0, 0, 118, 109, 105, 110,
  102, 0, 0, 0, 110, 115, 116, 98, 108, 0, 0, 0, 102, 115, 116, 115, 100, 0, 0, 0, 0, 0, 0, 0, 1, 0, 0, 0, 86, 97, 118, 99, 49, 0, 0, 0,
  0, 0, 0, 0, 1, 0, 0, 0, 0, 0, 0, 0, 0, 0, 0, 0, 0, 0, 0, 0, 0, 2, 128, 1, 104, 0, 0, 0, 0, 0, 0, 0, 0, 0, 0, 0, 0, 0, 1, 0, 0, 0, 0, 0,
  0, 0, 0, 0, 0, 0, 0, 0, 0, 0, 0, 0, 0, 0, 0, 0, 0, 0, 0, 0, 0, 0, 0, 0, 0, 0, 0, 0, 24, 255, 255, 0, 0, 1, 2, 116, 114, 97, 107, 0, 0,
  0, 92, 116, 107, 104, 100, 0, 0, 0, 0, 0, 0, 0, 0, 0, 0, 0, 0, 0, 0, 0, 2, 0, 0, 0, 0, 0, 0, 0, 0, 0, 0, 0, 0, 0, 0, 0, 0, 0, 0, 0, 0,
  0, 0, 0, 0, 0, 0, 0, 0, 0, 0, 0, 0, 0, 0, 0, 0, 0, 0, 0, 0, 0, 0, 0, 0, 0, 0, 0, 0, 0, 0, 0, 0, 0, 0, 0, 0, 0, 0, 0, 0, 0, 0, 0, 0, 0,
  0, 0, 0, 0, 0, 0, 158, 109, 100, 105, 97, 0, 0, 0, 32, 109, 100, 104, 100, 0, 0, 0, 0, 0, 0, 0, 0, 0, 0, 0, 0, 0, 0, 2, 88, 0, 0, 0, 0,
  0, 0, 0, 0, 0, 0, 0, 118, 109, 105, 110, 102, 0, 0, 0, 110, 115, 116, 98, 108, 0, 0, 0, 102, 115, 116, 115, 100, 0, 0, 0, 0, 0, 0, 0,
  1, 0, 0, 0, 86, 97, 118, 99, 49, 0, 0, 0, 0, 0, 0, 0, 1, 0, 0, 0, 0, 0, 0, 0, 0, 0, 0, 0, 0, 0, 0, 0, 0, 2, 128, 1, 104, 0, 0, 0, 0, 0,
  0, 0, 0, 0, 0, 0, 0, 0, 1, 0, 0, 0, 0, 0, 0, 0, 0, 0, 0, 0, 0, 0, 0, 0, 0, 0, 0, 0, 0, 0, 0, 0, 0, 0, 0, 0, 0, 0, 0, 0, 0, 0, 24, 255,
  255]

/-- A fragment of an AVC track with two `trun`s: seven samples of 20 ticks. -/
def twoRunsFile : Bytes := [0, 0, 1, 10, 109, 111, 111, 118, 0, 0, 1, 2, 116, 114, 97, 107, 0, 0, 0, 92, 116, 107, 104, 100, 0, 0, 0, 0,
  0, 0, 0, 0, 0, 0, 0, 0, 0, 0, 0, 1, 0, 0, 0, 0, 0, 0, 0, 0, 0, 0, 0, 0, 0, 0, 0, 0, 0, 0, 0, 0, 0, 0, 0, 0, 0, 0, 0, 0, 0, 0, 0, 0, 0,
  0, 0, 0, 0, 0, 0, 0, 0, 0, 0, 0, 0, 0, 0, 0, 0, 0, 0, 0, 0, 0, 0, 0, 0, 0, 0, 0, 0, 0, 0, 0, 0, 0, 0, 0, 0, 0, 0, 158, 109, 100, 105,
  97, 0, 0, 0, 32, 109, 100, 104, 100, 0, 0, 0, 0, 0, 0, 0, 0, 0, 0, 0, 0, 0, 0, 2, 88, 0, 0, 0, 0, 0, 0, 0, 0, 0, 0, 0, 118, 109, 105,
  110, 102, 0, 0, 0, 110, 115, 116, 98, 108, 0, 0, 0, 102, 115, 116, 115, 100, 0, 0, 0, 0, 0, 0, 0, 1, 0, 0, 0, 86, 97, 118, 99, 49, 0,
  0, 0, 0, 0, 0, 0, 1, 0, 0, 0, 0, 0, 0, 0, 0, 0, 0, 0, 0, 0, 0, 0, 0, 2, 128, 1, 104, 0, 0, 0, 0, 0, 0, 0, 0, 0, 0, 0, 0, 0, 1, 0, 0, 0,
  0, 0, 0, 0, 0, 0, 0, 0, 0, 0, 0, 0, 0, 0, 0, 0, 0, 0, 0, 0, 0, 0, 0, 0, 0, 0, 0, 0, 0, 0, 24, 255, 255, 0, 0, 0, 68, 109, 111, 111,
  102, 0, 0, 0, 60, 116, 114, 97, 102, 0, 0, 0, 20, 116, 102, 104, 100, 0, 0, 0, 8, 0, 0, 0, 1, 0, 0, 0, 20, 0, 0, 0, 16, 116, 114, 117,
  110, 0, 0, 0, 0, 0, 0, 0, 3, 0, 0, 0, 16, 116, 114, 117, 110, 0, 0, 0, 0, 0, 0, 0, 4]

/-- the boxes of `divFile` -/
def divForest : Forest :=
  .leaf ⟨0, 16, 8, fourcc "ftyp", false, {}⟩ (.node ⟨16, 622, 8, fourcc "moov", false, {}⟩ 0
    (.leaf ⟨24, 108, 8, fourcc "mvhd", false, {}⟩ (.leaf ⟨132, 258, 8, fourcc "trak", false, {}⟩ (.leaf ⟨390, 208, 8, fourcc "trak", false, {}⟩
      (.leaf ⟨598, 40, 8, fourcc "mvex", false, {}⟩ .nil))))
    (.leaf ⟨638, 52, 8, fourcc "moof", false, {}⟩ (.leaf ⟨690, 11, 8, fourcc "mdat", false, {}⟩ (.leaf ⟨701, 56, 8, fourcc "moof", false, {}⟩
      (.leaf ⟨757, 9, 8, fourcc "mdat", false, {}⟩ (.leaf ⟨766, 10, 8, fourcc "mdat", false, {}⟩ (.leaf ⟨776, 52, 8, fourcc "moof", false, {}⟩
        (.leaf ⟨828, 9, 8, fourcc "mdat", false, {}⟩ .nil))))))))

theorem ownCtx_ftyp {path : List BoxType} {bi : BoxInfo} (hc : bi.ctx = {}) (ht : bi.type ≠ tKeys)
    (h : (match (BoxMap.std.unmarshalAny d tFtyp (sub64 bi.size bi.headerSize) {} (bi.offset + bi.headerSize)).1 with
      | .ok r => !(ftypBrands r.1.sv).has brandQT
      | _ => false) = true) : OwnCtx d path {} bi := by
  generalize hr : BoxMap.std.unmarshalAny d tFtyp (sub64 bi.size bi.headerSize) {} (bi.offset + bi.headerSize) = x at h
  match x, hr, h with
  | (.ok (box, n), p), hr, h =>
    refine ⟨by rw [hc], by rw [hc], by rw [hc], by rw [hc], by rw [hc], ⟨fun q => (by rw [hc] at q; cases q), ?_⟩, fun _ _ => ⟨box, n, p, hr⟩,
      fun _ => by rw [hc], fun q => absurd q ht⟩
    rintro (q | ⟨-, -, b, m, r, q1, q2⟩)
    · cases q
    · rw [hr] at q1
      cases q1
      simp [q2] at h

theorem divFile_laid : Laid divFile divForest true [] {} 0 0 := by
  have L : ∀ {bi : BoxInfo} {isRoot path pos total}, bi.offset = pos → isoHeader (divFile.drop pos) = .box bi.size bi.headerSize bi.type bi.extendToEOF →
      (isRoot = true ∨ (8 ≤ total ∧ bi.size ≤ total)) → bi.ctx = {} → bi.type ≠ tFtyp → bi.type ≠ tKeys → Seen divFile isRoot path {} pos total bi :=
    fun h1 h2 h3 h4 h5 h6 => ⟨h1, h2, h3, ownCtx_plain h4 h5 h6⟩
  refine ⟨⟨rfl, by decide +kernel, .inl rfl, ownCtx_ftyp rfl (by decide) (by decide +kernel)⟩, by decide,
    L rfl (by decide +kernel) (.inl rfl) rfl (by decide) (by decide), by decide, rfl,
    ⟨L rfl (by decide +kernel) (.inr (by decide)) rfl (by decide) (by decide), by decide,
     L rfl (by decide +kernel) (.inr (by decide)) rfl (by decide) (by decide), by decide,
     L rfl (by decide +kernel) (.inr (by decide)) rfl (by decide) (by decide), by decide,
     L rfl (by decide +kernel) (.inr (by decide)) rfl (by decide) (by decide), by decide, by decide, .inl rfl⟩,
    L rfl (by decide +kernel) (.inl rfl) rfl (by decide) (by decide), by decide,
    L rfl (by decide +kernel) (.inl rfl) rfl (by decide) (by decide), by decide,
    L rfl (by decide +kernel) (.inl rfl) rfl (by decide) (by decide), by decide,
    L rfl (by decide +kernel) (.inl rfl) rfl (by decide) (by decide), by decide,
    L rfl (by decide +kernel) (.inl rfl) rfl (by decide) (by decide), by decide,
    L rfl (by decide +kernel) (.inl rfl) rfl (by decide) (by decide), by decide,
    L rfl (by decide +kernel) (.inl rfl) rfl (by decide) (by decide), by decide,
    show isoHeader (divFile.drop 837) = .truncated by decide +kernel⟩

theorem divForest_sane : SaneSizes divForest := by
  simp [SaneSizes, divForest]

/-- the tracks of `divFile` -/
def divFileTracks : List DTrack := [⟨1, .video, 600, 640, 360⟩, ⟨2, .audio, 1000, 0, 0⟩]

/-- what can be compared of a run: the outcome, the tracks, and for each track `init.mp4`, the segments and their durations -/
def outcome (r : Out Unit × List DTrack × DivSt) : Out Unit × List DTrack × List (List Bytes × List Nat) :=
  (r.1, r.2.1, r.2.1.map fun t => ([r.2.2.inits t.kind, r.2.2.segs t.kind 0, r.2.2.segs t.kind 1, r.2.2.segs t.kind 2], r.2.2.durs t.id))

/-- What is written for the first track: the initialization segment without the `trak` of the second one, and the first and the third fragment;
for the second track: the initialization segment without the `trak` of the first one, and the second fragment. -/
theorem divFile_run : outcome (divide divFile 20) = (.ok (), divFileTracks, [
    ([divFile.take 16 ++ ([0, 0, 1, 158] ++ [109, 111, 111, 118] ++ ((divFile.drop 24).take 366 ++ (divFile.drop 598).take 40)),
      (divFile.drop 638).take 63, (divFile.drop 776).take 61, []], [60, 30]),
    ([divFile.take 16 ++ ([0, 0, 1, 108] ++ [109, 111, 111, 118] ++ ((divFile.drop 24).take 108 ++ (divFile.drop 390).take 248)),
      (divFile.drop 701).take 75, [], []], [16])]) := by decide +kernel

theorem outcome_inv {r : Out Unit × List DTrack × DivSt} {o : Out Unit} {ts : List DTrack} {x} (h : outcome r = (o, ts, x)) : r = (o, ts, r.2.2) := by
  obtain ⟨a, b, c⟩ := r
  unfold outcome at h
  simp only [Prod.mk.injEq] at h
  simp [h.1, h.2.1]

/-- the hypotheses are met -/
example := divide_writes (d := divFile) (fuel := 20) (by decide +kernel) (outcome_inv divFile_run) (by decide +kernel)

/-- the tracks are found -/
example : (divTracks divFile 20 0).1 = .ok divFileTracks := by decide +kernel

/-! ## Files that it cannot handle -/

/-- **C63**, findings — a `styp` box, as segments commonly begin with, is an error; -/
theorem divide_styp : (divide stypFile 20).1 = .err (.msg "unexpected box type") := by decide +kernel

/-- a fragment without `trun`, which ISO 14496-12 allows, is a panic; -/
theorem divide_no_trun : (divide noRunFile 20).1 = .panic := by decide +kernel

/-- so is `mfra` inside `moov`. -/
theorem divide_moov_mfra : (divide moovMfraFile 20).1 = .panic := by decide +kernel

/-- Two tracks of the same kind write into the same file: it begins with two headers of `moov`, and has more bytes than the whole input. -/
theorem divide_same_kind : twinFile.length = 524 ∧ (divide twinFile 20).1 = .ok () ∧ ((divide twinFile 20).2.2.inits .video).length = 532 ∧
    (((divide twinFile 20).2.2.inits .video).drop 4).take 4 = tMoov.bytes ∧ (((divide twinFile 20).2.2.inits .video).drop 12).take 4 = tMoov.bytes := by
  decide +kernel

/-- The duration of a fragment with several `trun`s is that of the first one: 60 instead of 140 ticks. -/
theorem divide_two_runs : (divide twoRunsFile 20).1 = .ok () ∧ (divide twoRunsFile 20).2.2.durs 1 = [60] := by decide +kernel

end Mp4.Props
