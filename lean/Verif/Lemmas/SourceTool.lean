import Verif.Lemmas.SourceRead
import Verif.Model.SourceTool
import Verif.Spec.SourceTool

/-!
# Traversal of a source that does not fail, and the commands
-/

namespace Mp4.Src

open Mp4 Mp4.Spec Mp4.Tool

variable {σ S P V α β τ ρ : Type} {k : Rdr σ} {d : Bytes} {place : σ → Nat} {failed : σ → Option Err}

/-- what is done with errors does not matter if the source does not fail -/
theorem steady_try {ab : τ → ρ} {ms : M τ α} {m : M ρ α} {fs : Except Err α → M τ β} {f : Except Err α → M ρ β}
    (h : Sim ab (fun _ => none) ms m) (hf : ∀ r, Sim ab (fun _ => none) (fs r) (f r)) :
    Sim ab (fun _ => none) (tryM ms >>= fs) (tryM m >>= f) :=
  sim_try h hf fun _ _ _ h => by cases h

/-- for traversals -/
abbrev StT (place : σ → Nat) (ms : M (TS σ S V) α) (m : TM S V α) : Prop := Sim (abT place) (fun _ => none) ms m

theorem lift_st {ms : M σ α} {m : PM α} (h : Sim place (fun _ => none) ms m) : StT (S := S) (V := V) place (liftT ms) (liftP m) := liftT_sim h
theorem emit_st (e : Ev V) : StT (S := S) place (emit e) (Mp4.emit e) := emit_sim (failed := fun _ => none) e

theorem runProg_st (hk : Reads k d place (fun _ => none)) (m : BoxMap) (path : List BoxType) (bi : BoxInfo)
    {chs : Nat → P → M (TS σ S V) (List V)} {ch : Nat → P → TM S V (List V)} (hch : ∀ co p, StT place (chs co p) (ch co p)) :
    ∀ (g : Prog S P V) (co : Nat), WholeData g → StT place (runProg k m path bi chs g co) (Mp4.runProg m d path bi ch g co)
  | .ret _, _, _ => sim_pure _
  | .err _, _, _ => sim_fail _
  | .get g, co, hg => by
    unfold runProg Mp4.runProg
    exact sim_get fun t => runProg_st hk m path bi hch (g t.user) co (hg _)
  | .set s g, co, hg => by
    unfold runProg Mp4.runProg
    exact sim_bind (sim_modify (fun _ => rfl) fun _ => rfl) fun _ => runProg_st hk m path bi hch g co hg
  | .stream mv g, co, hg => by
    unfold runProg Mp4.runProg
    have h0 : Sim place (fun _ => none) (seeking k.src.tell) M.get := by
      intro t ht
      exact seeking_sim (want := fun p => p) hk.serves.tell t ht
    have h1 : ∀ q, Sim place (fun _ => none) (seeking (k.src.seek q)) (fun _ => (.ok q, q)) := by
      intro q t ht
      exact seeking_sim (want := fun _ => q) (hk.serves.seek q) t ht
    have h := sim_bind (lift_st (S := S) (V := V) h0) fun p => sim_bind (lift_st (S := S) (V := V) (h1 (mv p))) fun _ =>
      runProg_st hk m path bi hch (g p) co (hg p)
    exact h
  | .readPayload g, co, hg => by
    unfold runProg Mp4.runProg
    refine steady_try (lift_st (readPayload_sim hk m bi)) fun r => ?_
    cases r with
    | ok a => exact runProg_st hk m path bi hch (g (.ok a)) _ (hg _)
    | error e => exact runProg_st hk m path bi hch (g (.error e)) _ (hg _)
  | .readData w g, co, hg => by
    unfold runProg Mp4.runProg
    obtain ⟨hw, he, ho⟩ := hg
    have h := steady_try (fs := fun r => match r with
        | .ok (n, b) => runProg k m path bi chs (g (.ok n) b) co
        | .error e => runProg k m path bi chs (g (.error e) []) co) (f := fun r => match r with
        | .ok (n, b) => Mp4.runProg m d path bi ch (g (.ok n) b) co
        | .error e => Mp4.runProg m d path bi ch (g (.error e) []) co) (lift_st (S := S) (V := V) (readData_sim hk bi)) (fun r => ?_)
    · have hm : ∀ s, (liftP (readDataP d bi w) >>= fun x => Mp4.runProg m d path bi ch (g x.1 x.2) co) s =
          (tryM (liftP (readAllP d bi)) >>= fun r => match r with
            | .ok (n, b) => Mp4.runProg m d path bi ch (g (.ok n) b) co
            | .error e => Mp4.runProg m d path bi ch (g (.error e) []) co : TM S V V) s := by
        intro s
        rw [M.bind_run, M.bind_run]
        unfold tryM liftP
        rcases readDataP_all d bi w hw s.pos with ⟨n, b, p, h1, h2⟩ | ⟨e, b, p, h1, h2⟩
        · rw [h1, h2]
        · rw [h1, h2]
          simp only [he]
      intro t ht
      rcases h t ht with ⟨h1, h2⟩ | h1
      · exact .inl ⟨h1, (hm _).trans h2⟩
      · exact .inr h1
    · cases r with
      | ok a => exact runProg_st hk m path bi hch (g (.ok a.1) a.2) co (ho _ _)
      | error e => exact runProg_st hk m path bi hch (g (.error e) []) co (ho _ _)
  | .expand p g, co, hg => by
    unfold runProg Mp4.runProg
    refine steady_try (lift_st (expandStart_sim hk m bi co)) fun r => ?_
    cases r with
    | error e => exact runProg_st hk m path bi hch (g (.error e)) _ (hg _)
    | ok co' =>
      simp only
      refine sim_bind (emit_st _) fun _ => steady_try (hch co' p) fun r => ?_
      exact sim_bind (emit_st _) fun _ => runProg_st hk m path bi hch (g r) _ (hg r)

theorem fromInternal_st (hk : Reads k d place (fun _ => none)) (m : BoxMap) (h : Handler S P V) (hh : ∀ x, WholeData (h x))
    {recs : BoxInfo → Nat → List BoxType → Ctx → P → M (TS σ S V) (List V)} {rec : BoxInfo → Nat → List BoxType → Ctx → P → TM S V (List V)}
    (hrec : ∀ a b c x p, StT place (recs a b c x p) (rec a b c x p))
    (parent : Option BoxInfo) (bi : BoxInfo) (path : List BoxType) (p : P) :
    StT place (fromInternal k m h recs parent bi path p) (Mp4.fromInternal m d h rec parent bi path p) := by
  unfold fromInternal Mp4.fromInternal
  refine sim_bind (lift_st (seekToPayload_sim hk _)) fun _ => sim_bind (lift_st (checkFtyp_sim hk _ _ _)) fun bi => sim_bind (lift_st (checkKeys_sim hk _ _)) fun bi => ?_
  refine sim_bind (emit_st _) fun _ => steady_try (runProg_st hk m _ bi (fun co p => hrec _ _ _ _ _) _ 0 (hh _)) (fun r => ?_)
  exact sim_bind (emit_st _) fun _ => sim_bind (ofExcept_sim r) fun _ => sim_bind (lift_st (seekToEnd_sim hk _)) fun _ => sim_pure _

theorem readStructure_st (hk : Reads k d place (fun _ => none)) (m : BoxMap) (h : Handler S P V) (hh : ∀ x, WholeData (h x)) :
    ∀ fuel parent total isRoot path ctx p,
      StT place (readStructure k m h fuel parent total isRoot path ctx p) (Mp4.readStructure m d h fuel parent total isRoot path ctx p)
  | 0, _, _, _, _, _, _ => sim_hang
  | fuel + 1, parent, total, isRoot, path, ctx, p => by
    unfold readStructure Mp4.readStructure
    refine sim_ite (fun _ => ?_) fun _ => sim_ite (fun _ => sim_fail _) fun _ => sim_pure _
    refine steady_try (lift_st (readBoxInfo_sim hk)) (fun r => ?_)
    cases r with
    | error e => exact sim_ite (fun _ => sim_pure _) fun _ => sim_fail _
    | ok bi =>
      refine sim_ite (fun _ => sim_fail _) fun _ => ?_
      refine sim_bind (fromInternal_st hk m h hh (fun a b c x p => readStructure_st hk m h hh fuel (some a) b false c x p) parent _ path p) fun a => ?_
      exact sim_bind (readStructure_st hk m h hh fuel parent _ isRoot path _ p) fun _ => sim_pure _

theorem readBoxStructure_st (hk : Reads k d place (fun _ => none)) (m : BoxMap) (h : Handler S P V) (hh : ∀ x, WholeData (h x)) (fuel : Nat) (p : P) :
    StT place (readBoxStructure k m h fuel p) (Mp4.readBoxStructure m d h fuel p) :=
  sim_bind (lift_st (seekStart_simP hk 0)) fun _ => readStructure_st hk m h hh fuel _ _ _ _ _ p

/-! ## The commands -/

theorem println_whole {line : Str.Text} {g : DProg} (h : WholeData g) : WholeData (println line g) := fun _ => h
theorem panics_whole : WholeData panics := fun _ => trivial

theorem dumpRaw_whole (bi : BoxInfo) (full : Bool) (line : Str.Text) : WholeData (dumpRaw bi full line) := by
  unfold dumpRaw
  split
  · split
    · exact panics_whole
    · refine ⟨rfl, fun e b => rfl, fun r b => ?_⟩
      cases r with
      | ok n => exact println_whole trivial
      | error e => trivial
  · exact println_whole trivial

theorem dumpTool_whole (cfg : DumpCfg) (h : Handle Unit) : WholeData (dumpTool cfg h) := by
  unfold dumpTool
  simp only
  split
  · exact println_whole trivial
  · split
    · split
      · exact println_whole trivial
      · intro r
        unfold dumpPayload
        cases r with
        | error e =>
          simp only
          split
          · exact dumpRaw_whole _ _ _
          · trivial
        | ok x =>
          simp only
          split
          · exact panics_whole
          · refine println_whole fun r => ?_
            cases r <;> trivial
    · exact dumpRaw_whole _ _ _

theorem dump_st (hk : Reads k d place (fun _ => none)) (cfg : DumpCfg) (fuel : Nat) (t : σ) (h0 : place t = 0) : dump k cfg fuel t = Tool.dump d cfg fuel := by
  unfold dump Tool.dump
  rcases readBoxStructure_st hk BoxMap.std (dumpTool cfg) (dumpTool_whole cfg) fuel () ⟨t, ⟨[], false⟩, []⟩ rfl with ⟨-, h⟩ | ⟨e, h, -⟩
  · rw [show abT place ⟨t, ⟨[], false⟩, []⟩ = (⟨0, ⟨[], false⟩, []⟩ : TSt DumpSt Unit) by unfold abT; rw [h0]] at h
    rw [h]
    generalize readBoxStructure k BoxMap.std (dumpTool cfg) fuel () ⟨t, ⟨[], false⟩, []⟩ = x
    obtain ⟨o, s⟩ := x
    cases o <;> rfl
  · cases h

theorem psshOne_sim (hk : Reads k d place failed) (i : Nat) (bi : BoxInfo) (v : BoxVal) : Sim place failed (psshOne k i bi v) (Tool.psshOne d i bi v) := by
  unfold psshOne Tool.psshOne
  cases v.assert "Pssh" with
  | none => exact sim_panic
  | some sv =>
    refine sim_bind (seekStart_simP hk _) fun _ => sim_ite (fun _ => sim_panic) fun _ => ?_
    exact sim_bind (readFullS_sim hk _) fun _ => sim_pure _

theorem psshLoop_sim (hk : Reads k d place failed) : ∀ (l : List (BoxInfo × BoxVal)) (i : Nat), Sim place failed (psshLoop k i l) (Tool.psshLoop d i l)
  | [], _ => sim_pure _
  | (bi, v) :: l, i => sim_bind (psshOne_sim hk i bi v) fun _ => sim_bind (psshLoop_sim hk l (i + 1)) fun _ => sim_pure _

theorem psshdump_sim (hk : Reads k d place failed) (m : BoxMap) (fuel : Nat) : Sim place failed (psshdump k m fuel) (Tool.psshdump m d fuel) :=
  sim_bind (extractBoxesWithPayload_sim hk _ _ _ _) fun _ => psshLoop_sim hk _ _

theorem trackReport_sim (hk : Reads k d place failed) (fuel : Nat) (info : ProbeInfo) (tr : Track) :
    Sim place failed (trackReport k fuel info tr) (Tool.trackReport d fuel info tr) := by
  unfold trackReport Tool.trackReport
  refine sim_bind (ofOut_sim _) fun _ => ?_
  cases tr.codec with
  | avc1 => exact sim_bind (findIDRFrames_sim hk fuel tr) fun _ => sim_pure _
  | mp4a => exact sim_pure _
  | unknown => exact sim_pure _

theorem trackReports_sim (hk : Reads k d place failed) (fuel : Nat) (info : ProbeInfo) : ∀ l : List Track,
    Sim place failed (trackReports k fuel info l) (Tool.trackReports d fuel info l)
  | [] => sim_pure _
  | tr :: l => sim_bind (trackReport_sim hk fuel info tr) fun _ => sim_bind (trackReports_sim hk fuel info l) fun _ => sim_pure _

theorem buildReport_sim (hk : Reads k d place failed) (m : BoxMap) (fuel : Nat) : Sim place failed (buildReport k m fuel) (Tool.buildReport m d fuel) :=
  sim_bind (probe_sim hk m fuel) fun _ => sim_bind (trackReports_sim hk fuel _ _) fun _ => sim_pure _

theorem probeJson_sim (hk : Reads k d place failed) (m : BoxMap) (fuel : Nat) : Sim place failed (probeJson k m fuel) (Tool.probeJson m d fuel) :=
  sim_bind (buildReport_sim hk m fuel) fun _ => sim_ite (fun _ => sim_pure _) fun _ => sim_fail _

/-! ## extract -/

/-- the two definitions of traversals agree -/
theorem readStructure_act (m : BoxMap) (h : Handler S P V) : ∀ fuel parent total isRoot path ctx p,
    readStructureAct k m (fun bi path p ch => runProg k m path bi ch (h ⟨p, bi, path⟩) 0) fuel parent total isRoot path ctx p =
      readStructure k m h fuel parent total isRoot path ctx p
  | 0, _, _, _, _, _, _ => rfl
  | fuel + 1, parent, total, isRoot, path, ctx, p => by
    unfold readStructureAct readStructure
    simp only [readStructure_act m h fuel]
    rfl

theorem fromInternalAct_st (hk : Reads k d place (fun _ => none)) (m : BoxMap) (h : Handler S P V) (act : Act σ S P V)
    (hact : ∀ bi path p (chs : Nat → P → M (TS σ S V) (List V)) (ch : Nat → P → TM S V (List V)), (∀ co p, StT place (chs co p) (ch co p)) →
      StT place (act bi path p chs) (Mp4.runProg m d path bi ch (h ⟨p, bi, path⟩) 0))
    {recs : BoxInfo → Nat → List BoxType → Ctx → P → M (TS σ S V) (List V)} {rec : BoxInfo → Nat → List BoxType → Ctx → P → TM S V (List V)}
    (hrec : ∀ a b c x p, StT place (recs a b c x p) (rec a b c x p))
    (parent : Option BoxInfo) (bi : BoxInfo) (path : List BoxType) (p : P) :
    StT place (fromInternalAct k m act recs parent bi path p) (Mp4.fromInternal m d h rec parent bi path p) := by
  unfold fromInternalAct Mp4.fromInternal
  refine sim_bind (lift_st (seekToPayload_sim hk _)) fun _ => sim_bind (lift_st (checkFtyp_sim hk _ _ _)) fun bi => sim_bind (lift_st (checkKeys_sim hk _ _)) fun bi => ?_
  refine sim_bind (emit_st _) fun _ => steady_try (hact bi _ p _ _ fun co p => hrec _ _ _ _ _) (fun r => ?_)
  exact sim_bind (emit_st _) fun _ => sim_bind (ofExcept_sim r) fun _ => sim_bind (lift_st (seekToEnd_sim hk _)) fun _ => sim_pure _

theorem readStructureAct_st (hk : Reads k d place (fun _ => none)) (m : BoxMap) (h : Handler S P V) (act : Act σ S P V)
    (hact : ∀ bi path p (chs : Nat → P → M (TS σ S V) (List V)) (ch : Nat → P → TM S V (List V)), (∀ co p, StT place (chs co p) (ch co p)) →
      StT place (act bi path p chs) (Mp4.runProg m d path bi ch (h ⟨p, bi, path⟩) 0)) :
    ∀ fuel parent total isRoot path ctx p,
      StT place (readStructureAct k m act fuel parent total isRoot path ctx p) (Mp4.readStructure m d h fuel parent total isRoot path ctx p)
  | 0, _, _, _, _, _, _ => sim_hang
  | fuel + 1, parent, total, isRoot, path, ctx, p => by
    unfold readStructureAct Mp4.readStructure
    refine sim_ite (fun _ => ?_) fun _ => sim_ite (fun _ => sim_fail _) fun _ => sim_pure _
    refine steady_try (lift_st (readBoxInfo_sim hk)) (fun r => ?_)
    cases r with
    | error e => exact sim_ite (fun _ => sim_pure _) fun _ => sim_fail _
    | ok bi =>
      refine sim_ite (fun _ => sim_fail _) fun _ => ?_
      refine sim_bind (fromInternalAct_st hk m h act hact (fun a b c x p => readStructureAct_st hk m h act hact fuel (some a) b false c x p) parent _ path p) fun a => ?_
      exact sim_bind (readStructureAct_st hk m h act hact fuel parent _ isRoot path _ p) fun _ => sim_pure _

theorem copyOut_run (hk : Reads k d place (fun _ => none)) : ∀ (fuel need : Nat) (got : Bytes) (t : σ), min need (d.length - place t) < fuel →
    ∃ t', copyOut k.src k.ask fuel need got t = (.ok (got ++ (d.drop (place t)).take need, if need ≤ d.length - place t then none else some .eof), t') ∧
      place t' = place t + ((d.drop (place t)).take need).length
  | fuel, need, got, t, hf => by
    unfold copyOut
    by_cases h0 : need = 0
    · subst h0
      exact ⟨t, by simp, by simp⟩
    rw [if_neg h0]
    obtain ⟨fuel, rfl⟩ : ∃ f, fuel = f + 1 := ⟨fuel - 1, by omega⟩
    simp only
    have ha := hk.ask need (by omega)
    rcases hk.serves.read (k.ask need) t ha.1 rfl with ⟨j, j1, j2, j3, h1, h2, -⟩ | ⟨h1, h2, h3, -⟩ | ⟨e, -, h⟩
    · generalize k.src.read (k.ask need) t = x at h1 h2
      obtain ⟨o, t1⟩ := x
      simp only at h1 h2
      subst h1
      simp only
      have hl : ((d.drop (place t)).take j).length = j := by rw [List.length_take, List.length_drop]; omega
      obtain ⟨t', i1, i2⟩ := copyOut_run hk fuel (need - ((d.drop (place t)).take j).length) (got ++ (d.drop (place t)).take j) t1 (by rw [h2, hl]; omega)
      rw [hl, h2] at i1
      rw [hl, h2] at i2
      have e1 : (d.drop (place t)).take need = (d.drop (place t)).take j ++ (d.drop (place t + j)).take (need - j) := by
        rw [← List.drop_drop, ← List.take_add, Nat.add_sub_cancel' (by omega)]
      refine ⟨t', ?_, ?_⟩
      · rw [hl, i1, e1, List.append_assoc]
        by_cases hc : need ≤ d.length - place t
        · rw [if_pos hc, if_pos (by omega)]
        · rw [if_neg hc, if_neg (by omega)]
      · rw [i2, e1, List.length_append, hl]
        omega
    · generalize k.src.read (k.ask need) t = x at h2 h3
      obtain ⟨o, t1⟩ := x
      simp only at h2 h3
      subst h2
      refine ⟨t1, ?_, ?_⟩
      · have : (d.drop (place t)).take need = [] := by rw [List.drop_of_length_le h1, List.take_nil]
        rw [this]
        simp only [List.append_nil, List.length_nil]
        rw [if_neg (by omega), if_neg (by omega)]
      · rw [List.drop_of_length_le h1, List.take_nil]
        exact h3
    · cases h

theorem descend_whole (bi : BoxInfo) : WholeData (descend bi) := by
  unfold descend
  split
  · trivial
  · split
    · trivial
    · intro r
      cases r with
      | ok l => trivial
      | error e =>
        unfold expanded
        simp only
        split <;> trivial

theorem extractAct_st (hk : Reads k d place (fun _ => none)) (t : BoxType) (bi : BoxInfo) (path : List BoxType) (p : Unit)
    (chs : Nat → Unit → M (TS σ Bytes Unit) (List Unit)) (ch : Nat → Unit → TM Bytes Unit (List Unit)) (hch : ∀ co p, StT place (chs co p) (ch co p)) :
    StT place (extractAct k t bi path p chs) (Mp4.runProg BoxMap.std d path bi ch (Tool.extractTool d t ⟨p, bi, path⟩) 0) := by
  have hd := runProg_st hk BoxMap.std path bi hch (descend bi) 0 (descend_whole bi)
  unfold extractAct Tool.extractTool
  by_cases h : bi.type = t
  · rw [if_pos h, if_pos h]
    intro s _
    left
    refine ⟨rfl, ?_⟩
    have hseek : ∃ s1, seeking (k.src.seek bi.offset) s.src = (.ok bi.offset, s1) ∧ place s1 = bi.offset := by
      rcases hk.serves.seek bi.offset s.src rfl with ⟨h1, h2, -⟩ | ⟨e, -, h⟩
      · generalize hx : k.src.seek bi.offset s.src = x at h1 h2
        obtain ⟨o, s1⟩ := x
        simp only at h1 h2
        subst h1
        exact ⟨s1, by unfold seeking; rw [hx], h2⟩
      · cases h
    obtain ⟨s1, h1, h2⟩ := hseek
    obtain ⟨s2, h3, h4⟩ := copyOut_run hk ((int64 bi.size).toNat + k.fuel) (int64 bi.size).toNat [] s1 (by rw [hk.fuel]; omega)
    rw [h2] at h3 h4
    have hl : ((d.drop bi.offset).take (int64 bi.size).toNat).length = min (int64 bi.size).toNat (d.length - bi.offset) := by
      rw [List.length_take, List.length_drop]
    have e1 : (liftT (seeking (k.src.seek bi.offset)) : M (TS σ Bytes Unit) Nat) s = (.ok bi.offset, { s with src := s1 }) := by
      unfold liftT; rw [h1]
    have e2 : (liftT (copyOut k.src k.ask ((int64 bi.size).toNat + k.fuel) (int64 bi.size).toNat []) : M (TS σ Bytes Unit) _) { s with src := s1 } =
        (.ok ((d.drop bi.offset).take (int64 bi.size).toNat, if (int64 bi.size).toNat ≤ d.length - bi.offset then none else some .eof), { s with src := s2 }) := by
      unfold liftT; rw [h3]; rfl
    rw [M.bind_ok e1, M.bind_ok e2]
    simp only
    rw [M.bind_ok (M.modify_run _ _)]
    have e3 : ∀ (g : Prog Bytes Unit Unit), Mp4.runProg BoxMap.std d path bi ch (.stream (fun _ => bi.offset + (copied d bi).length) fun _ =>
        .get fun out => .set (out ++ copied d bi) g) 0 (abT place s) =
          Mp4.runProg BoxMap.std d path bi ch g 0 (abT place { s with src := s2, user := s.user ++ (d.drop bi.offset).take (int64 bi.size).toNat }) := by
      intro g
      unfold abT
      rw [h4]
      rfl
    rw [e3]
    by_cases hc : (int64 bi.size).toNat ≤ d.length - bi.offset
    · have hs : ¬ ((copied d bi).length : Int) < int64 bi.size := by unfold copied; rw [hl]; omega
      rw [if_pos hc, if_neg hs]
      rcases hd { s with src := s2, user := s.user ++ (d.drop bi.offset).take (int64 bi.size).toNat } rfl with ⟨-, h5⟩ | ⟨e, h5, -⟩
      · exact h5
      · cases h5
    · have hs : ((copied d bi).length : Int) < int64 bi.size := by unfold copied; rw [hl]; omega
      rw [if_neg hc, if_pos hs]
      rfl
  · rw [if_neg h, if_neg h]
    exact hd

theorem extract_st (hk : Reads k d place (fun _ => none)) (ty : BoxType) (fuel : Nat) (t : σ) (h0 : place t = 0) : extract k ty fuel t = Tool.extract d ty fuel := by
  unfold extract Tool.extract
  have h := sim_bind (lift_st (S := Bytes) (V := Unit) (seekStart_simP hk 0)) fun _ =>
    readStructureAct_st hk BoxMap.std (Tool.extractTool d ty) (extractAct k ty) (extractAct_st hk ty) fuel none 0 true [] {} ()
  rcases h ⟨t, [], []⟩ rfl with ⟨-, h⟩ | ⟨e, h, -⟩
  · rw [show abT place ⟨t, [], []⟩ = (⟨0, [], []⟩ : TSt Bytes Unit) by unfold abT; rw [h0]] at h
    have h' : Mp4.readBoxStructure BoxMap.std d (Tool.extractTool d ty) fuel () ⟨0, [], []⟩ = _ := h
    rw [h']
    generalize (liftT (seekStart k.src 0) >>= fun _ => readStructureAct k BoxMap.std (extractAct k ty) fuel none 0 true [] {} ()) (⟨t, [], []⟩ : TS σ Bytes Unit) = x
    obtain ⟨o, s⟩ := x
    cases o <;> rfl
  · cases h

end Mp4.Src
