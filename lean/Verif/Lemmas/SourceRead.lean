import Verif.Lemmas.SourceUnmarshal

/-!
# Traversal, extraction and `Probe` from a source compared with the same from memory
-/

namespace Mp4.Src

open Mp4 Mp4.Spec

variable {σ S P V α β τ ρ : Type} {k : Rdr σ} {d : Bytes} {place : σ → Nat} {failed : σ → Option Err}

/-! ## box_info.go -/

theorem seekStart_simP (hk : Reads k d place failed) (off : Nat) : Sim place failed (seekStart k.src off) (seekStartP off) := by
  unfold seekStart
  intro t ht
  unfold seekStartP
  by_cases h : 2 ^ 63 ≤ off % U64
  · rw [if_pos h, if_pos h]
    exact .inl ⟨ht, rfl⟩
  · rw [if_neg h, if_neg h]
    exact seeking_sim (want := fun _ => off % U64) (hk.serves.seek (off % U64)) t ht

theorem copyNS_simP (hk : Reads k d place failed) (n : Nat) : Sim place failed (copyNS k n) (copyNP d n) := copyNS_sim hk.serves hk.ask n

theorem readBoxInfo_sim (hk : Reads k d place failed) : Sim place failed (readBoxInfo k) (Mp4.readBoxInfo d) := by
  unfold readBoxInfo Mp4.readBoxInfo
  have h0 : Sim place failed (seeking k.src.tell) M.get := by
    intro t ht
    exact seeking_sim (want := fun p => p) hk.serves.tell t ht
  refine sim_bind h0 fun offset => sim_bind (copyNS_simP hk _) fun data => ?_
  have hend : Sim place failed (seeking k.src.toEnd) (seekEndP d) := by
    intro t ht
    exact seeking_sim (want := fun _ => d.length) hk.serves.toEnd t ht
  simp only
  have hfin : ∀ bi : BoxInfo, Sim place failed (if bi.size = 0 then M.fail .invalidSize else pure bi) (if bi.size = 0 then M.fail .invalidSize else pure bi) :=
    fun bi => sim_ite (fun _ => sim_fail _) fun _ => sim_pure _
  generalize beNat (data.take 4) = sz
  by_cases h1 : sz = 0
  · rw [if_pos h1, if_pos h1]
    refine sim_bind hend fun e => sim_bind (seekStart_simP hk _) fun _ => hfin _
  · rw [if_neg h1, if_neg h1]
    by_cases h2 : sz = 1
    · rw [if_pos h2, if_pos h2]
      exact sim_bind (copyNS_simP hk _) fun _ => hfin _
    · rw [if_neg h2, if_neg h2]
      exact sim_bind (sim_pure _) hfin

/-! ## read.go -/

/-- The state of a traversal in memory that corresponds to one on the source. -/
def abT (place : σ → Nat) (s : TS σ S V) : TSt S V := ⟨place s.src, s.user, s.log⟩
/-- has its source failed? -/
def flT (failed : σ → Option Err) (s : TS σ S V) : Option Err := failed s.src

/-- for traversals -/
abbrev SimT (place : σ → Nat) (failed : σ → Option Err) (ms : M (TS σ S V) α) (m : TM S V α) : Prop := Sim (abT place) (flT failed) ms m

theorem liftT_sim {ms : M σ α} {m : PM α} (h : Sim place failed ms m) : SimT (S := S) (V := V) place failed (liftT ms) (liftP m) := by
  intro t ht
  unfold liftT liftP
  rcases h t.src ht with ⟨h1, h2⟩ | ⟨e, h1, h2⟩
  · left
    generalize ms t.src = x at h1 h2
    obtain ⟨o, t'⟩ := x
    refine ⟨h1, ?_⟩
    rw [show (abT place t).pos = place t.src from rfl, h2]
    rfl
  · right
    generalize ms t.src = x at h1 h2
    obtain ⟨o, t'⟩ := x
    exact ⟨e, h1, h2⟩

theorem emit_sim (e : Ev V) : SimT (S := S) place failed (emit e) (Mp4.emit e) := sim_modify (fun _ => rfl) (fun _ => rfl)

/-- An error that is handed on after some bookkeeping. -/
theorem sim_try {ab : τ → ρ} {fl : τ → Option Err} {ms : M τ α} {m : M ρ α} {fs : Except Err α → M τ β} {f : Except Err α → M ρ β}
    (h : Sim ab fl ms m) (hf : ∀ r, Sim ab fl (fs r) (f r))
    (hp : ∀ e t e', fl t = some e' → Reported e' (.err e : Out α) → fl (fs (.error e) t).2 = some e' ∧ (fs (.error e) t).1 = .err e) :
    Sim ab fl (tryM ms >>= fs) (tryM m >>= f) := by
  intro t ht
  rw [M.bind_run, M.bind_run]
  unfold tryM
  rcases h t ht with ⟨h1, h2⟩ | ⟨e, h1, h2⟩
  · rw [h2]
    generalize ms t = x at h1 h2
    obtain ⟨o, t'⟩ := x
    cases o with
    | ok a => exact hf (.ok a) t' h1
    | err e => exact hf (.error e) t' h1
    | panic => exact .inl ⟨h1, rfl⟩
    | hang => exact .inl ⟨h1, rfl⟩
  · generalize ms t = x at h1 h2
    obtain ⟨o, t'⟩ := x
    right
    simp only at h1 h2
    have : ∃ x, o = .err x ∧ Reported e (.err x : Out α) := by
      rcases h2 with h | h | h <;> exact ⟨_, h, by rw [← h]; first | exact .inl h | exact .inr (.inl h) | exact .inr (.inr h)⟩
    obtain ⟨x, rfl, hr⟩ := this
    have := hp x t' e h1 hr
    refine ⟨e, this.1, ?_⟩
    simp only
    rw [this.2]
    rcases hr with hr | hr | hr <;> · injection hr with hr; subst hr; simp [Reported]

theorem seekToPayload_sim (hk : Reads k d place failed) (bi : BoxInfo) : Sim place failed (seekToPayload k bi) bi.seekToPayload := seekStart_simP hk _
theorem seekToEnd_sim (hk : Reads k d place failed) (bi : BoxInfo) : Sim place failed (seekToEnd k bi) bi.seekToEnd := seekStart_simP hk _

theorem readPayload_sim (hk : Reads k d place failed) (m : BoxMap) (bi : BoxInfo) : Sim place failed (readPayload k m bi) (readPayloadP m d bi) :=
  sim_bind (seekToPayload_sim hk bi) fun _ => unmarshalAny_sim hk _ _ _ _

theorem checkFtyp_sim (hk : Reads k d place failed) (m : BoxMap) (path : List BoxType) (bi : BoxInfo) :
    Sim place failed (checkFtyp k m path bi) (Mp4.checkFtyp m d path bi) := by
  unfold checkFtyp Mp4.checkFtyp
  refine sim_ite (fun _ => ?_) fun _ => sim_pure _
  exact sim_bind (unmarshalAny_sim hk _ _ _ _) fun _ => sim_bind (seekToPayload_sim hk _) fun _ => sim_pure _

theorem checkKeys_sim (hk : Reads k d place failed) (m : BoxMap) (bi : BoxInfo) :
    Sim place failed (checkKeys k m bi) (Mp4.checkKeys m d bi) := by
  unfold checkKeys Mp4.checkKeys
  refine sim_ite (fun _ => ?_) fun _ => sim_pure _
  exact sim_bind (unmarshalAny_sim hk _ _ _ _) fun _ => sim_bind (seekToPayload_sim hk _) fun _ => sim_pure _

theorem expandStart_sim (hk : Reads k d place failed) (m : BoxMap) (bi : BoxInfo) (co : Nat) :
    Sim place failed (expandStart k m bi co) (Mp4.expandStart m d bi co) := by
  unfold expandStart Mp4.expandStart
  refine sim_ite (fun _ => ?_) fun _ => ?_
  · exact sim_bind (readPayload_sim hk _ _) fun _ => sim_pure _
  · exact sim_bind (seekStart_simP hk _) fun _ => sim_pure _

/-- `readDataP` for a destination that takes everything, without the bytes received when copying fails -/
def readAllP (d : Bytes) (bi : BoxInfo) : PM (Nat × Bytes) := do
  let _ ← bi.seekToPayload
  let b ← copyNP d (sub64 bi.size bi.headerSize)
  pure (sub64 bi.size bi.headerSize, b)

theorem readData_sim (hk : Reads k d place failed) (bi : BoxInfo) : Sim place failed (readData k bi) (readAllP d bi) :=
  sim_bind (seekToPayload_sim hk bi) fun _ => sim_bind (copyNS_simP hk _) fun _ => sim_pure _

/-- the result of `readDataP` seen from `readAllP` -/
theorem readDataP_all (d : Bytes) (bi : BoxInfo) (w : Dest) (hw : w.cap = none) (pos : Nat) :
    (∃ n b p, readAllP d bi pos = (.ok (n, b), p) ∧ readDataP d bi w pos = (.ok (.ok n, b), p)) ∨
    (∃ e b p, readAllP d bi pos = (.err e, p) ∧ readDataP d bi w pos = (.ok (.error e, b), p)) := by
  have hs : bi.seekToPayload pos = (.err .negativeSeek, pos) ∨ ∃ q, bi.seekToPayload pos = (.ok q, q) := by
    unfold BoxInfo.seekToPayload seekStartP
    split
    · exact .inl rfl
    · exact .inr ⟨_, rfl⟩
  unfold readAllP readDataP
  rcases hs with hs | ⟨q, hs⟩
  · rw [M.bind_err hs, hs]
    exact .inr ⟨_, _, _, rfl, rfl⟩
  · rw [M.bind_ok hs, hs]
    simp only [hw]
    have hc : (∃ b p, copyNP d (sub64 bi.size bi.headerSize) q = (.ok b, p)) ∨ ∃ e p, copyNP d (sub64 bi.size bi.headerSize) q = (.err e, p) := by
      unfold copyNP
      simp only
      split
      · exact .inl ⟨_, _, rfl⟩
      · split
        · exact .inr ⟨_, _, rfl⟩
        · exact .inl ⟨_, _, rfl⟩
    rcases hc with ⟨b, p, hc⟩ | ⟨e, p, hc⟩
    · rw [M.bind_ok hc, hc]
      exact .inl ⟨_, _, _, rfl, rfl⟩
    · rw [M.bind_err hc, hc]
      exact .inr ⟨_, _, _, rfl, rfl⟩

theorem runProg_err (m : BoxMap) (path : List BoxType) (bi : BoxInfo) (ch : Nat → P → M (TS σ S V) (List V)) (e : Err) (co : Nat) :
    runProg k m path bi ch (.err e) co = M.fail e := rfl

theorem runProg_errM (m : BoxMap) (path : List BoxType) (bi : BoxInfo) (ch : Nat → P → TM S V (List V)) (e : Err) (co : Nat) :
    Mp4.runProg m d path bi ch (.err e) co = M.fail e := rfl

theorem runProg_sim (hk : Reads k d place failed) (m : BoxMap) (path : List BoxType) (bi : BoxInfo)
    {chs : Nat → P → M (TS σ S V) (List V)} {ch : Nat → P → TM S V (List V)} (hch : ∀ co p, SimT place failed (chs co p) (ch co p)) :
    ∀ (g : Prog S P V) (co : Nat), PassesErrors g → SimT place failed (runProg k m path bi chs g co) (Mp4.runProg m d path bi ch g co)
  | .ret _, _, _ => sim_pure _
  | .err _, _, _ => sim_fail _
  | .get g, co, hg => by
    unfold runProg Mp4.runProg
    exact sim_get fun t => runProg_sim hk m path bi hch (g t.user) co (hg _)
  | .set s g, co, hg => by
    unfold runProg Mp4.runProg
    exact sim_bind (sim_modify (fun _ => rfl) fun _ => rfl) fun _ => runProg_sim hk m path bi hch g co hg
  | .stream mv g, co, hg => by
    unfold runProg Mp4.runProg
    have h0 : Sim place failed (seeking k.src.tell) M.get := by
      intro t ht
      exact seeking_sim (want := fun p => p) hk.serves.tell t ht
    have h1 : ∀ q, Sim place failed (seeking (k.src.seek q)) (fun _ => (.ok q, q)) := by
      intro q t ht
      exact seeking_sim (want := fun _ => q) (hk.serves.seek q) t ht
    have h := sim_bind (liftT_sim (S := S) (V := V) h0) fun p => sim_bind (liftT_sim (S := S) (V := V) (h1 (mv p))) fun _ =>
      runProg_sim hk m path bi hch (g p) co (hg p)
    exact h
  | .readPayload g, co, hg => by
    unfold runProg Mp4.runProg
    refine sim_try (liftT_sim (readPayload_sim hk m bi)) (fun r => ?_) ?_
    · cases r with
      | ok a => exact runProg_sim hk m path bi hch (g (.ok a)) _ (hg.2 a)
      | error e =>
        simp only
        rw [hg.1 e]
        exact sim_fail _
    · intro e t e' h1 _
      simp only
      rw [hg.1 e]
      exact ⟨h1, rfl⟩
  | .readData w g, co, hg => by
    unfold runProg Mp4.runProg
    obtain ⟨hw, he, ho⟩ := hg
    have h := sim_try (fs := fun r => match r with
        | .ok (n, b) => runProg k m path bi chs (g (.ok n) b) co
        | .error e => runProg k m path bi chs (g (.error e) []) co) (f := fun r => match r with
        | .ok (n, b) => Mp4.runProg m d path bi ch (g (.ok n) b) co
        | .error e => Mp4.runProg m d path bi ch (g (.error e) []) co) (liftT_sim (S := S) (V := V) (readData_sim hk bi)) (fun r => ?_) ?_
    · have hm : ∀ s, (liftP (readDataP d bi w) >>= fun x => Mp4.runProg m d path bi ch (g x.1 x.2) co) s =
          (tryM (liftP (readAllP d bi)) >>= fun r => match r with
            | .ok (n, b) => Mp4.runProg m d path bi ch (g (.ok n) b) co
            | .error e => Mp4.runProg m d path bi ch (g (.error e) []) co : TM S V V) s := by
        intro s
        rw [M.bind_run, M.bind_run]
        unfold tryM liftP
        rcases readDataP_all d bi w hw s.pos with ⟨n, b, p, h1, h2⟩ | ⟨e, b, p, h1, h2⟩
        · rw [h1, h2]
        · rw [h1, h2]
          simp only [he]
      intro t ht
      rcases h t ht with ⟨h1, h2⟩ | h1
      · exact .inl ⟨h1, (hm _).trans h2⟩
      · exact .inr h1
    · cases r with
      | ok a => exact runProg_sim hk m path bi hch (g (.ok a.1) a.2) co (ho _ _)
      | error e =>
        simp only [he]
        exact sim_fail _
    · intro e t e' h1 _
      simp only [he]
      exact ⟨h1, rfl⟩
  | .expand p g, co, hg => by
    unfold runProg Mp4.runProg
    refine sim_try (liftT_sim (expandStart_sim hk m bi co)) (fun r => ?_) ?_
    · cases r with
      | error e =>
        simp only
        rw [hg.1 e]
        exact sim_fail _
      | ok co' =>
        simp only
        refine sim_bind (emit_sim _) fun _ => sim_try (hch co' p) (fun r => ?_) ?_
        · cases r with
          | ok l => exact sim_bind (emit_sim _) fun _ => runProg_sim hk m path bi hch (g (.ok l)) _ (hg.2 l)
          | error e =>
            rw [hg.1 e]
            exact sim_bind (emit_sim _) fun _ => sim_fail _
        · intro e t e' h1 _
          rw [hg.1 e]
          exact ⟨h1, rfl⟩
    · intro e t e' h1 _
      simp only
      rw [hg.1 e]
      exact ⟨h1, rfl⟩

theorem ofExcept_sim {ab : τ → ρ} {fl : τ → Option Err} (r : Except Err α) : Sim ab fl (ofExcept r) (ofExcept r) := by
  cases r with
  | ok a => exact sim_pure a
  | error e => exact sim_fail e

theorem fromInternal_sim (hk : Reads k d place failed) (m : BoxMap) (h : Handler S P V) (hh : ∀ x, PassesErrors (h x))
    {recs : BoxInfo → Nat → List BoxType → Ctx → P → M (TS σ S V) (List V)} {rec : BoxInfo → Nat → List BoxType → Ctx → P → TM S V (List V)}
    (hrec : ∀ a b c x p, SimT place failed (recs a b c x p) (rec a b c x p))
    (parent : Option BoxInfo) (bi : BoxInfo) (path : List BoxType) (p : P) :
    SimT place failed (fromInternal k m h recs parent bi path p) (Mp4.fromInternal m d h rec parent bi path p) := by
  unfold fromInternal Mp4.fromInternal
  refine sim_bind (liftT_sim (seekToPayload_sim hk _)) fun _ => sim_bind (liftT_sim (checkFtyp_sim hk _ _ _)) fun bi => sim_bind (liftT_sim (checkKeys_sim hk _ _)) fun bi => ?_
  refine sim_bind (emit_sim _) fun _ => sim_try (runProg_sim hk m _ bi (fun co p => hrec _ _ _ _ _) _ 0 (hh _)) (fun r => ?_) ?_
  · exact sim_bind (emit_sim _) fun _ => sim_bind (ofExcept_sim r) fun _ => sim_bind (liftT_sim (seekToEnd_sim hk _)) fun _ => sim_pure _
  · intro e t e' h1 _
    exact ⟨h1, rfl⟩

theorem readStructure_sim (hk : Reads k d place failed) (m : BoxMap) (h : Handler S P V) (hh : ∀ x, PassesErrors (h x)) :
    ∀ fuel parent total isRoot path ctx p,
      SimT place failed (readStructure k m h fuel parent total isRoot path ctx p) (Mp4.readStructure m d h fuel parent total isRoot path ctx p)
  | 0, _, _, _, _, _, _ => sim_hang
  | fuel + 1, parent, total, isRoot, path, ctx, p => by
    unfold readStructure Mp4.readStructure
    refine sim_ite (fun _ => ?_) fun _ => sim_ite (fun _ => sim_fail _) fun _ => sim_pure _
    refine sim_try (liftT_sim (readBoxInfo_sim hk)) (fun r => ?_) ?_
    · cases r with
      | error e => exact sim_ite (fun _ => sim_pure _) fun _ => sim_fail _
      | ok bi =>
        refine sim_ite (fun _ => sim_fail _) fun _ => ?_
        refine sim_bind (fromInternal_sim hk m h hh (fun a b c x p => readStructure_sim hk m h hh fuel (some a) b false c x p) parent _ path p) fun a => ?_
        exact sim_bind (readStructure_sim hk m h hh fuel parent _ isRoot path _ p) fun _ => sim_pure _
    · intro e t e' h1 hr
      simp only
      have hne : e ≠ .eof := by
        rintro rfl
        rcases hr with hr | hr | hr
        · injection hr with hr
          subst hr
          exact hk.serves.notEOF _ h1
        · cases hr
        · cases hr
      rw [if_neg (fun x => hne x.2)]
      exact ⟨h1, rfl⟩

theorem readBoxStructure_sim (hk : Reads k d place failed) (m : BoxMap) (h : Handler S P V) (hh : ∀ x, PassesErrors (h x)) (fuel : Nat) (p : P) :
    SimT place failed (readBoxStructure k m h fuel p) (Mp4.readBoxStructure m d h fuel p) :=
  sim_bind (liftT_sim (seekStart_simP hk 0)) fun _ => readStructure_sim hk m h hh fuel _ _ _ _ _ p

theorem readBoxStructureFrom_sim (hk : Reads k d place failed) (m : BoxMap) (h : Handler S P V) (hh : ∀ x, PassesErrors (h x)) (fuel : Nat) (bi : BoxInfo) (p : P) :
    SimT place failed (readBoxStructureFrom k m h fuel bi p) (Mp4.readBoxStructureFrom m d h fuel bi p) :=
  fromInternal_sim hk m h hh (fun a b c x p => readStructure_sim hk m h hh fuel (some a) b false c x p) none bi [] p

/-! ## extract.go -/

theorem extractHandler_passes (below : Bool) (paths : List (List BoxType)) (h : Handle Unit) : PassesErrors (extractHandler below paths h) := by
  unfold extractHandler
  simp only
  generalize (if below = true then h.path.drop 1 else h.path) = q
  split
  · trivial
  · intro s
    unfold PassesErrors
    split
    · exact ⟨fun _ => rfl, fun _ => trivial⟩
    · trivial

theorem extractBoxes_sim (hk : Reads k d place failed) (m : BoxMap) (fuel : Nat) (parent : Option BoxInfo) (paths : List (List BoxType)) :
    Sim place failed (extractBoxes k m fuel parent paths) (Mp4.extractBoxes m d fuel parent paths) := by
  intro t ht
  unfold extractBoxes Mp4.extractBoxes
  by_cases h1 : paths = []
  · rw [if_pos h1, if_pos h1]; exact .inl ⟨ht, rfl⟩
  rw [if_neg h1, if_neg h1]
  by_cases h2 : paths.any (fun q => q.length == 0) = true
  · rw [if_pos h2, if_pos h2]; exact .inl ⟨ht, rfl⟩
  rw [if_neg h2, if_neg h2]
  cases parent with
  | some bi =>
    simp only
    have h := readBoxStructureFrom_sim hk m (extractHandler true paths) (extractHandler_passes true paths) fuel bi () ⟨t, [], []⟩ ht
    rw [show (⟨place t, [], []⟩ : TSt (List BoxInfo) Unit) = abT place ⟨t, [], []⟩ from rfl]
    rcases h with ⟨h1, h2⟩ | ⟨e, h1, h2⟩
    · rw [h2]
      generalize readBoxStructureFrom k m (extractHandler true paths) fuel bi () ⟨t, [], []⟩ = x at h1 h2
      obtain ⟨o, t'⟩ := x
      left
      cases o <;> exact ⟨h1, rfl⟩
    · generalize readBoxStructureFrom k m (extractHandler true paths) fuel bi () ⟨t, [], []⟩ = x at h1 h2
      obtain ⟨o, t'⟩ := x
      right
      rcases h2 with h2 | h2 | h2 <;> · simp only at h2; subst h2; exact ⟨e, h1, by simp [Reported]⟩
  | none =>
    simp only
    have h := readBoxStructure_sim hk m (extractHandler false paths) (extractHandler_passes false paths) fuel () ⟨t, [], []⟩ ht
    rw [show (⟨place t, [], []⟩ : TSt (List BoxInfo) Unit) = abT place ⟨t, [], []⟩ from rfl]
    rcases h with ⟨h1, h2⟩ | ⟨e, h1, h2⟩
    · rw [h2]
      generalize readBoxStructure k m (extractHandler false paths) fuel () ⟨t, [], []⟩ = x at h1 h2
      obtain ⟨o, t'⟩ := x
      left
      cases o <;> exact ⟨h1, rfl⟩
    · generalize readBoxStructure k m (extractHandler false paths) fuel () ⟨t, [], []⟩ = x at h1 h2
      obtain ⟨o, t'⟩ := x
      right
      rcases h2 with h2 | h2 | h2 <;> · simp only at h2; subst h2; exact ⟨e, h1, by simp [Reported]⟩

theorem decodeAll_sim (hk : Reads k d place failed) (m : BoxMap) (ctx : Ctx) : ∀ l, Sim place failed (decodeAll k m ctx l) (Mp4.decodeAll m d ctx l)
  | [] => sim_pure _
  | bi :: l => by
    unfold decodeAll Mp4.decodeAll
    exact sim_bind (seekToPayload_sim hk bi) fun _ => sim_bind (unmarshalAny_sim hk _ _ _ _) fun _ => sim_bind (decodeAll_sim hk m ctx l) fun _ => sim_pure _

theorem extractBoxesWithPayload_sim (hk : Reads k d place failed) (m : BoxMap) (fuel : Nat) (parent : Option BoxInfo) (paths : List (List BoxType)) :
    Sim place failed (extractBoxesWithPayload k m fuel parent paths) (Mp4.extractBoxesWithPayload m d fuel parent paths) :=
  sim_bind (extractBoxes_sim hk m fuel parent paths) fun _ => decodeAll_sim hk m _ _

/-! ## probe.go -/

theorem ofOut_sim {ab : τ → ρ} {fl : τ → Option Err} (x : Out α) : Sim ab fl (ofOut x) (ofOut x) := fun _ h => .inl ⟨h, rfl⟩

theorem orPanic_sim {ab : τ → ρ} {fl : τ → Option Err} (x : Option α) : Sim ab fl (orPanic x) (orPanic x) := by
  cases x with
  | some a => exact sim_pure a
  | none => exact sim_panic

theorem probeTrak_sim (hk : Reads k d place failed) (m : BoxMap) (fuel : Nat) (bi : BoxInfo) : Sim place failed (probeTrak k m fuel bi) (Mp4.probeTrak m d fuel bi) :=
  sim_bind (extractBoxesWithPayload_sim hk _ _ _ _) fun _ => sim_bind (orPanic_sim _) fun _ => ofOut_sim _

theorem probeMoof_sim (hk : Reads k d place failed) (m : BoxMap) (fuel : Nat) (bi : BoxInfo) : Sim place failed (probeMoof k m fuel bi) (Mp4.probeMoof m d fuel bi) :=
  sim_bind (extractBoxesWithPayload_sim hk _ _ _ _) fun _ => sim_bind (orPanic_sim _) fun _ => ofOut_sim _

theorem unmarshalAt_sim (hk : Reads k d place failed) (bd : BoxDef) (bi : BoxInfo) : Sim place failed (unmarshalAt k bd bi) (Mp4.unmarshalAt d bd bi) :=
  sim_bind (seekToPayload_sim hk bi) fun _ => sim_bind (unmarshalBox_sim hk _ _ _ _) fun _ => sim_pure _

theorem probeOne_sim (hk : Reads k d place failed) (m : BoxMap) (fuel : Nat) (bi : BoxInfo) (seen : Bool) (info : ProbeInfo) :
    Sim place failed (probeOne k m fuel bi seen info) (Mp4.probeOne m d fuel bi seen info) := by
  unfold probeOne Mp4.probeOne
  refine sim_ite (fun _ => sim_bind (unmarshalAt_sim hk _ _) fun _ => sim_pure _) fun _ => ?_
  refine sim_ite (fun _ => sim_pure _) fun _ => ?_
  refine sim_ite (fun _ => sim_bind (unmarshalAt_sim hk _ _) fun _ => sim_pure _) fun _ => ?_
  refine sim_ite (fun _ => sim_bind (probeTrak_sim hk _ _ _) fun _ => sim_pure _) fun _ => ?_
  refine sim_ite (fun _ => sim_bind (probeMoof_sim hk _ _ _) fun _ => sim_pure _) fun _ => ?_
  exact sim_ite (fun _ => sim_pure _) fun _ => sim_pure _

theorem probeLoop_sim (hk : Reads k d place failed) (m : BoxMap) (fuel : Nat) : ∀ l seen info,
    Sim place failed (probeLoop k m fuel l seen info) (Mp4.probeLoop m d fuel l seen info)
  | [], _, _ => sim_pure _
  | bi :: l, seen, info => by
    unfold probeLoop Mp4.probeLoop
    exact sim_bind (probeOne_sim hk _ _ _ _ _) fun a => probeLoop_sim hk m fuel l a.1 a.2

theorem probe_sim (hk : Reads k d place failed) (m : BoxMap) (fuel : Nat) : Sim place failed (probe k m fuel) (Mp4.probe m d fuel) :=
  sim_bind (extractBoxes_sim hk _ _ _ _) fun a => probeLoop_sim hk m fuel a.1 _ _

theorem readFullS_sim (hk : Reads k d place failed) (n : Nat) : Sim place failed (readFullS k n) (readFullP d n) := by
  intro t ht
  have h := fillLoop_sim hk.serves (n + k.fuel) n [] (by omega) t ht
  have he : fillMem d n [] (place t) = readFullP d n (place t) := by
    unfold fillMem readFullP
    simp only [List.nil_append, List.length_eq_zero_iff]
  rw [← he]
  exact h

theorem nalLoop_sim (hk : Reads k d place failed) (ls size off : Nat) : ∀ fuel n, Sim place failed (nalLoop k ls size off fuel n) (Mp4.nalLoop d ls size off fuel n)
  | 0, _ => sim_hang
  | fuel + 1, n => by
    unfold nalLoop Mp4.nalLoop
    refine sim_ite (fun _ => ?_) fun _ => sim_pure _
    refine sim_bind (seekStart_simP hk _) fun _ => sim_bind (readFullS_sim hk _) fun _ => ?_
    exact sim_ite (fun _ => sim_pure _) fun _ => nalLoop_sim hk ls size off fuel _

theorem chunkLoop_sim (hk : Reads k d place failed) (fuel ls stop : Nat) : ∀ l si off idxs,
    Sim place failed (chunkLoop k fuel ls stop l si off idxs) (Mp4.chunkLoop d fuel ls stop l si off idxs)
  | [], _, _, _ => sim_pure _
  | s :: l, si, off, idxs => by
    unfold chunkLoop Mp4.chunkLoop
    refine sim_ite (fun _ => ?_) fun _ => sim_pure _
    refine sim_ite (fun _ => chunkLoop_sim hk fuel ls stop l _ _ _) fun _ => ?_
    exact sim_bind (nalLoop_sim hk _ _ _ _ _) fun _ => chunkLoop_sim hk fuel ls stop l _ _ _

theorem chunksLoop_sim (hk : Reads k d place failed) (fuel ls : Nat) (samples : List Sample) : ∀ l si idxs,
    Sim place failed (chunksLoop k fuel ls samples l si idxs) (Mp4.chunksLoop d fuel ls samples l si idxs)
  | [], _, _ => sim_pure _
  | c :: l, si, idxs => by
    unfold chunksLoop Mp4.chunksLoop
    exact sim_bind (chunkLoop_sim hk _ _ _ _ _ _ _) fun a => chunksLoop_sim hk fuel ls samples l a.1 a.2

theorem findIDRFrames_sim (hk : Reads k d place failed) (fuel : Nat) (t : Track) : Sim place failed (findIDRFrames k fuel t) (Mp4.findIDRFrames d fuel t) := by
  unfold findIDRFrames Mp4.findIDRFrames
  cases t.avc with
  | none => exact sim_pure _
  | some a =>
    simp only
    exact sim_bind (chunksLoop_sim hk _ _ _ _ _ _) fun _ => sim_pure _

end Mp4.Src
