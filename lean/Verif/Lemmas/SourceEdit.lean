import Verif.Lemmas.SourceTool
import Verif.Lemmas.Write
import Verif.Model.SourceEdit

/-!
# `mp4tool edit` on a source compared with the same in memory

The model in memory does not say where the input stands after an error, nor, exactly, after a box has been copied.  So the comparison leaves the position open there;
it is set before it is used.
-/

namespace Mp4.Src

open Mp4 Mp4.Spec Mp4.Edit

variable {σ S P V α β : Type} {k : Rdr σ} {d : Bytes} {place : σ → Nat} {failed : σ → Option Err}

/-- the same up to the position -/
def SimA (place : σ → Nat) (failed : σ → Option Err) (ms : M (TS σ S V) α) (m : TM S V α) : Prop := ∀ t, failed t.src = none →
  (failed (ms t).2.src = none ∧ ∃ p, m (abT place t) = ((ms t).1, { abT place (ms t).2 with pos := p })) ∨
    ∃ e, failed (ms t).2.src = some e ∧ Reported e (ms t).1

/-- the same up to the position after an error -/
def SimE (place : σ → Nat) (failed : σ → Option Err) (ms : M (TS σ S V) α) (m : TM S V α) : Prop := ∀ t, failed t.src = none →
  (failed (ms t).2.src = none ∧ ∃ p, m (abT place t) = ((ms t).1, { abT place (ms t).2 with pos := p }) ∧ (∀ a, (ms t).1 = .ok a → p = place (ms t).2.src)) ∨
    ∃ e, failed (ms t).2.src = some e ∧ Reported e (ms t).1

theorem SimE.of {ms : M (TS σ S V) α} {m : TM S V α} (h : SimT place failed ms m) : SimE place failed ms m := by
  intro t ht
  rcases h t ht with ⟨h1, h2⟩ | h1
  · exact .inl ⟨h1, _, h2, fun _ _ => rfl⟩
  · exact .inr h1

theorem SimE.toA {ms : M (TS σ S V) α} {m : TM S V α} (h : SimE place failed ms m) : SimA place failed ms m := by
  intro t ht
  rcases h t ht with ⟨h1, p, h2, -⟩ | h1
  · exact .inl ⟨h1, p, h2⟩
  · exact .inr h1

theorem simE_bind {ms : M (TS σ S V) α} {m : TM S V α} {fs : α → M (TS σ S V) β} {f : α → TM S V β} (h : SimE place failed ms m)
    (hf : ∀ a, SimE place failed (fs a) (f a)) : SimE place failed (ms >>= fs) (m >>= f) := by
  intro t ht
  rw [M.bind_run, M.bind_run]
  rcases h t ht with ⟨h1, p, h2, h3⟩ | ⟨e, h1, h2⟩
  · rw [h2]
    generalize ms t = x at h1 h2 h3
    obtain ⟨o, t'⟩ := x
    cases o with
    | ok a =>
      have := h3 a rfl
      subst this
      exact hf a t' h1
    | err e => exact .inl ⟨h1, p, rfl, fun _ h => nomatch h⟩
    | panic => exact .inl ⟨h1, p, rfl, fun _ h => nomatch h⟩
    | hang => exact .inl ⟨h1, p, rfl, fun _ h => nomatch h⟩
  · generalize ms t = x at h1 h2
    obtain ⟨o, t'⟩ := x
    right
    rcases h2 with h2 | h2 | h2 <;> · simp only at h2; subst h2; exact ⟨e, h1, by simp [Reported]⟩

theorem simE_ite {c : Prop} [Decidable c] {a b : M (TS σ S V) α} {a' b' : TM S V α} (h1 : c → SimE place failed a a') (h2 : ¬ c → SimE place failed b b') :
    SimE place failed (if c then a else b) (if c then a' else b') := by
  by_cases h : c
  · rw [if_pos h, if_pos h]; exact h1 h
  · rw [if_neg h, if_neg h]; exact h2 h

theorem simE_get {fs : TS σ S V → M (TS σ S V) β} {f : TSt S V → TM S V β} (hf : ∀ t, SimE place failed (fs t) (f (abT place t))) :
    SimE place failed (M.get >>= fs) (M.get >>= f) := by
  intro t ht
  rw [M.bind_ok (M.get_run _), M.bind_ok (M.get_run _)]
  exact hf t t ht

/-- errors of an exact simulation -/
theorem simE_tryT {ms : M (TS σ S V) α} {m : TM S V α} {fs : Except Err α → M (TS σ S V) β} {f : Except Err α → TM S V β}
    (h : SimT place failed ms m) (hf : ∀ r, SimE place failed (fs r) (f r))
    (hp : ∀ e t e', failed t.src = some e' → Reported e' (.err e : Out α) → failed (fs (.error e) t).2.src = some e' ∧ (fs (.error e) t).1 = .err e) :
    SimE place failed (tryM ms >>= fs) (tryM m >>= f) := by
  intro t ht
  rw [M.bind_run, M.bind_run]
  unfold tryM
  rcases h t ht with ⟨h1, h2⟩ | ⟨e, h1, h2⟩
  · rw [h2]
    generalize ms t = x at h1 h2
    obtain ⟨o, t'⟩ := x
    cases o with
    | ok a => exact hf (.ok a) t' h1
    | err e => exact hf (.error e) t' h1
    | panic => exact .inl ⟨h1, _, rfl, fun _ h => nomatch h⟩
    | hang => exact .inl ⟨h1, _, rfl, fun _ h => nomatch h⟩
  · generalize ms t = x at h1 h2
    obtain ⟨o, t'⟩ := x
    right
    simp only at h1 h2
    have : ∃ x, o = .err x ∧ Reported e (.err x : Out α) := by
      rcases h2 with h | h | h <;> exact ⟨_, h, by rw [← h]; first | exact .inl h | exact .inr (.inl h) | exact .inr (.inr h)⟩
    obtain ⟨x, rfl, hr⟩ := this
    have := hp x t' e h1 hr
    refine ⟨e, this.1, ?_⟩
    simp only
    rw [this.2]
    rcases hr with hr | hr | hr <;> · injection hr with hr; subst hr; simp [Reported]

/-- An error is recorded and handed on. -/
def HandsOn (fs : Except Err α → M (TS σ S V) β) (f : Except Err α → TM S V β) : Prop :=
  ∀ e, ∃ ev, fs (.error e) = (emit ev >>= fun _ => M.fail e) ∧ f (.error e) = (Mp4.emit ev >>= fun _ => M.fail e)

/-- what is done after a part that leaves the position open -/
theorem simE_tryA {ms : M (TS σ S V) α} {m : TM S V α} {fs : Except Err α → M (TS σ S V) β} {f : Except Err α → TM S V β}
    (h : SimA place failed ms m) (he : HandsOn fs f)
    (hf : ∀ a t p, failed t.src = none →
      (failed (fs (.ok a) t).2.src = none ∧ ∃ q, f (.ok a) { abT place t with pos := p } = ((fs (.ok a) t).1, { abT place (fs (.ok a) t).2 with pos := q }) ∧
        (∀ b, (fs (.ok a) t).1 = .ok b → q = place (fs (.ok a) t).2.src)) ∨
      ∃ e, failed (fs (.ok a) t).2.src = some e ∧ Reported e (fs (.ok a) t).1) :
    SimE place failed (tryM ms >>= fs) (tryM m >>= f) := by
  intro t ht
  rw [M.bind_run, M.bind_run]
  unfold tryM
  rcases h t ht with ⟨h1, p, h2⟩ | ⟨e, h1, h2⟩
  · rw [h2]
    generalize ms t = x at h1 h2
    obtain ⟨o, t'⟩ := x
    cases o with
    | ok a => exact hf a t' p h1
    | err e =>
      obtain ⟨ev, e1, e2⟩ := he e
      simp only
      rw [e1, e2]
      exact .inl ⟨h1, p, rfl, fun _ h => nomatch h⟩
    | panic => exact .inl ⟨h1, _, rfl, fun _ h => nomatch h⟩
    | hang => exact .inl ⟨h1, _, rfl, fun _ h => nomatch h⟩
  · generalize ms t = x at h1 h2
    obtain ⟨o, t'⟩ := x
    right
    simp only at h1 h2
    have : ∃ x, o = .err x := by
      rcases h2 with h | h | h <;> exact ⟨_, h⟩
    obtain ⟨x, rfl⟩ := this
    obtain ⟨ev, e1, -⟩ := he x
    simp only
    rw [e1]
    refine ⟨e, h1, ?_⟩
    show Reported e (Out.err x : Out β)
    rcases h2 with hr | hr | hr <;> · injection hr with hr; subst hr; simp [Reported]

theorem simE_tryE {ms : M (TS σ S V) α} {m : TM S V α} {fs : Except Err α → M (TS σ S V) β} {f : Except Err α → TM S V β}
    (h : SimE place failed ms m) (he : HandsOn fs f) (hf : ∀ a, SimE place failed (fs (.ok a)) (f (.ok a))) :
    SimE place failed (tryM ms >>= fs) (tryM m >>= f) := by
  intro t ht
  rw [M.bind_run, M.bind_run]
  unfold tryM
  rcases h t ht with ⟨h1, p, h2, h3⟩ | ⟨e, h1, h2⟩
  · rw [h2]
    generalize ms t = x at h1 h2 h3
    obtain ⟨o, t'⟩ := x
    cases o with
    | ok a =>
      have := h3 a rfl
      subst this
      exact hf a t' h1
    | err e =>
      obtain ⟨ev, e1, e2⟩ := he e
      simp only
      rw [e1, e2]
      exact .inl ⟨h1, p, rfl, fun _ h => nomatch h⟩
    | panic => exact .inl ⟨h1, _, rfl, fun _ h => nomatch h⟩
    | hang => exact .inl ⟨h1, _, rfl, fun _ h => nomatch h⟩
  · generalize ms t = x at h1 h2
    obtain ⟨o, t'⟩ := x
    right
    simp only at h1 h2
    have : ∃ x, o = .err x := by
      rcases h2 with h | h | h <;> exact ⟨_, h⟩
    obtain ⟨x, rfl⟩ := this
    obtain ⟨ev, e1, -⟩ := he x
    simp only
    rw [e1]
    refine ⟨e, h1, ?_⟩
    show Reported e (Out.err x : Out β)
    rcases h2 with hr | hr | hr <;> · injection hr with hr; subst hr; simp [Reported]

/-! ## Traversals -/

/-- A handler of which this module is about: no `ReadData`, no use of the stream; errors are handed on. -/
def Plain : Prog S P V → Prop
  | .ret _ => True
  | .err _ => True
  | .get g => ∀ s, Plain (g s)
  | .set _ g => Plain g
  | .stream _ _ => False
  | .readPayload g => (∀ e, g (.error e) = .err e) ∧ ∀ a, Plain (g (.ok a))
  | .readData _ _ => False
  | .expand _ g => (∀ e, g (.error e) = .err e) ∧ ∀ l, Plain (g (.ok l))

theorem runProg_simE (hk : Reads k d place failed) (m : BoxMap) (path : List BoxType) (bi : BoxInfo)
    {chs : Nat → P → M (TS σ S V) (List V)} {ch : Nat → P → TM S V (List V)} (hch : ∀ co p, SimE place failed (chs co p) (ch co p)) :
    ∀ (g : Prog S P V) (co : Nat), Plain g → SimE place failed (runProg k m path bi chs g co) (Mp4.runProg m d path bi ch g co)
  | .ret _, _, _ => .of (sim_pure _)
  | .err _, _, _ => .of (sim_fail _)
  | .get g, co, hg => by
    unfold runProg Mp4.runProg
    exact simE_get fun t => runProg_simE hk m path bi hch (g t.user) co (hg _)
  | .set s g, co, hg => by
    unfold runProg Mp4.runProg
    exact simE_bind (.of (sim_modify (fun _ => rfl) fun _ => rfl)) fun _ => runProg_simE hk m path bi hch g co hg
  | .stream _ _, _, hg => hg.elim
  | .readData _ _, _, hg => hg.elim
  | .readPayload g, co, hg => by
    unfold runProg Mp4.runProg
    refine simE_tryT (liftT_sim (readPayload_sim hk m bi)) (fun r => ?_) ?_
    · cases r with
      | ok a => exact runProg_simE hk m path bi hch (g (.ok a)) _ (hg.2 a)
      | error e =>
        simp only
        rw [hg.1 e]
        exact .of (sim_fail _)
    · intro e t e' h1 _
      simp only
      rw [hg.1 e]
      exact ⟨h1, rfl⟩
  | .expand p g, co, hg => by
    unfold runProg Mp4.runProg
    refine simE_tryT (liftT_sim (expandStart_sim hk m bi co)) (fun r => ?_) ?_
    · cases r with
      | error e =>
        simp only
        rw [hg.1 e]
        exact .of (sim_fail _)
      | ok co' =>
        simp only
        refine simE_bind (.of (emit_sim _)) fun _ => simE_tryE (hch co' p) ?_ fun l => ?_
        · intro e
          refine ⟨.closeBox path bi (.error e), ?_, ?_⟩
          · simp only [hg.1 e]; rfl
          · simp only [hg.1 e]; rfl
        · exact simE_bind (.of (emit_sim _)) fun _ => runProg_simE hk m path bi hch (g (.ok l)) _ (hg.2 l)
    · intro e t e' h1 _
      simp only
      rw [hg.1 e]
      exact ⟨h1, rfl⟩

theorem fromInternalAct_simE (hk : Reads k d place failed) (m : BoxMap) (h : Handler S P V) (act : Act σ S P V)
    (hact : ∀ bi path p (chs : Nat → P → M (TS σ S V) (List V)) (ch : Nat → P → TM S V (List V)), (∀ co p, SimE place failed (chs co p) (ch co p)) →
      SimA place failed (act bi path p chs) (Mp4.runProg m d path bi ch (h ⟨p, bi, path⟩) 0))
    {recs : BoxInfo → Nat → List BoxType → Ctx → P → M (TS σ S V) (List V)} {rec : BoxInfo → Nat → List BoxType → Ctx → P → TM S V (List V)}
    (hrec : ∀ a b c x p, SimE place failed (recs a b c x p) (rec a b c x p))
    (parent : Option BoxInfo) (bi : BoxInfo) (path : List BoxType) (p : P) :
    SimE place failed (fromInternalAct k m act recs parent bi path p) (Mp4.fromInternal m d h rec parent bi path p) := by
  unfold fromInternalAct Mp4.fromInternal
  refine simE_bind (.of (liftT_sim (seekToPayload_sim hk _))) fun _ => simE_bind (.of (liftT_sim (checkFtyp_sim hk _ _ _))) fun bi =>
    simE_bind (.of (liftT_sim (checkKeys_sim hk _ _))) fun bi => ?_
  refine simE_bind (.of (emit_sim _)) fun _ => simE_tryA (hact bi _ p _ _ fun co p => hrec _ _ _ _ _) ?_ ?_
  · intro e
    exact ⟨_, rfl, rfl⟩
  · intro a t p ht
    have key : ∀ (ts : TS σ S V) (p : Nat), failed ts.src = none →
        (failed ((liftT (seekToEnd k bi) >>= fun _ => pure (a, bi) : M (TS σ S V) (V × BoxInfo)) ts).2.src = none ∧ ∃ q,
          (liftP bi.seekToEnd >>= fun _ => pure (a, bi) : TM S V (V × BoxInfo)) { abT place ts with pos := p } =
            (((liftT (seekToEnd k bi) >>= fun _ => pure (a, bi) : M (TS σ S V) (V × BoxInfo)) ts).1,
              { abT place ((liftT (seekToEnd k bi) >>= fun _ => pure (a, bi) : M (TS σ S V) (V × BoxInfo)) ts).2 with pos := q }) ∧
          (∀ b, ((liftT (seekToEnd k bi) >>= fun _ => pure (a, bi) : M (TS σ S V) (V × BoxInfo)) ts).1 = .ok b →
            q = place ((liftT (seekToEnd k bi) >>= fun _ => pure (a, bi) : M (TS σ S V) (V × BoxInfo)) ts).2.src)) ∨
        ∃ e, failed ((liftT (seekToEnd k bi) >>= fun _ => pure (a, bi) : M (TS σ S V) (V × BoxInfo)) ts).2.src = some e ∧
          Reported e ((liftT (seekToEnd k bi) >>= fun _ => pure (a, bi) : M (TS σ S V) (V × BoxInfo)) ts).1 := by
      intro ts p hts
      rw [M.bind_run, M.bind_run]
      unfold liftT liftP
      rcases seekToEnd_sim hk bi ts.src hts with ⟨h1, h2⟩ | ⟨e, h1, h2⟩
      · left
        unfold BoxInfo.seekToEnd seekStartP at h2 ⊢
        generalize seekToEnd k bi ts.src = x at h1 h2
        obtain ⟨o, t'⟩ := x
        simp only at h1 h2 ⊢
        by_cases hc : 2 ^ 63 ≤ add64 bi.offset bi.size % U64
        · rw [if_pos hc] at h2 ⊢
          injection h2 with h3 h4
          subst h3
          exact ⟨h1, p, rfl, fun _ h => nomatch h⟩
        · rw [if_neg hc] at h2 ⊢
          injection h2 with h3 h4
          subst h3
          exact ⟨h1, _, rfl, fun _ _ => h4⟩
      · right
        generalize seekToEnd k bi ts.src = x at h1 h2
        obtain ⟨o, t'⟩ := x
        simp only at h1 h2 ⊢
        rcases h2 with h2 | h2 | h2 <;> · subst h2; exact ⟨e, h1, by simp [Reported]⟩
    exact key ⟨t.src, t.user, t.log ++ [.leave parent (path ++ [bi.type]) bi (.ok a)]⟩ p ht

theorem readStructureAct_simE (hk : Reads k d place failed) (m : BoxMap) (h : Handler S P V) (act : Act σ S P V)
    (hact : ∀ bi path p (chs : Nat → P → M (TS σ S V) (List V)) (ch : Nat → P → TM S V (List V)), (∀ co p, SimE place failed (chs co p) (ch co p)) →
      SimA place failed (act bi path p chs) (Mp4.runProg m d path bi ch (h ⟨p, bi, path⟩) 0)) :
    ∀ fuel parent total isRoot path ctx p,
      SimE place failed (readStructureAct k m act fuel parent total isRoot path ctx p) (Mp4.readStructure m d h fuel parent total isRoot path ctx p)
  | 0, _, _, _, _, _, _ => .of sim_hang
  | fuel + 1, parent, total, isRoot, path, ctx, p => by
    unfold readStructureAct Mp4.readStructure
    refine simE_ite (fun _ => ?_) fun _ => simE_ite (fun _ => .of (sim_fail _)) fun _ => .of (sim_pure _)
    refine simE_tryT (liftT_sim (readBoxInfo_sim hk)) (fun r => ?_) ?_
    · cases r with
      | error e => exact simE_ite (fun _ => .of (sim_pure _)) fun _ => .of (sim_fail _)
      | ok bi =>
        refine simE_ite (fun _ => .of (sim_fail _)) fun _ => ?_
        refine simE_bind (fromInternalAct_simE hk m h act hact (fun a b c x p => readStructureAct_simE hk m h act hact fuel (some a) b false c x p) parent _ path p) fun a => ?_
        exact simE_bind (readStructureAct_simE hk m h act hact fuel parent _ isRoot path _ p) fun _ => .of (sim_pure _)
    · intro e t e' h1 hr
      simp only
      have hne : e ≠ .eof := by
        rintro rfl
        rcases hr with hr | hr | hr
        · injection hr with hr
          subst hr
          exact hk.serves.notEOF _ h1
        · cases hr
        · cases hr
      rw [if_neg (fun x => hne x.2)]
      exact ⟨h1, rfl⟩

/-! ## Copying -/

theorem copyOut_any (hk : Reads k d place failed) : ∀ (fuel need : Nat) (got : Bytes) (t : σ), failed t = none → min need (d.length - place t) < fuel →
    (∃ t', copyOut k.src k.ask fuel need got t = (.ok (got ++ (d.drop (place t)).take need, if need ≤ d.length - place t then none else some .eof), t') ∧ failed t' = none ∧
      place t' = place t + ((d.drop (place t)).take need).length) ∨
    ∃ t' b e, copyOut k.src k.ask fuel need got t = (.ok (b, some e), t') ∧ failed t' = some e
  | fuel, need, got, t, ht, hf => by
    unfold copyOut
    by_cases h0 : need = 0
    · subst h0
      exact .inl ⟨t, by simp, ht, by simp⟩
    rw [if_neg h0]
    obtain ⟨fuel, rfl⟩ : ∃ f, fuel = f + 1 := ⟨fuel - 1, by omega⟩
    simp only
    have ha := hk.ask need (by omega)
    rcases hk.serves.read (k.ask need) t ha.1 ht with ⟨j, j1, j2, j3, h1, h2, h4⟩ | ⟨h1, h2, h3, h4⟩ | ⟨e, h1, h2⟩
    · generalize k.src.read (k.ask need) t = x at h1 h2 h4
      obtain ⟨o, t1⟩ := x
      simp only at h1 h2 h4
      subst h1
      simp only
      have hl : ((d.drop (place t)).take j).length = j := by rw [List.length_take, List.length_drop]; omega
      rcases copyOut_any hk fuel (need - ((d.drop (place t)).take j).length) (got ++ (d.drop (place t)).take j) t1 h4 (by rw [h2, hl]; omega) with ⟨t', i1, i2, i3⟩ | ⟨t', b, e, i1, i2⟩
      · left
        rw [hl, h2] at i1
        rw [hl, h2] at i3
        have e1 : (d.drop (place t)).take need = (d.drop (place t)).take j ++ (d.drop (place t + j)).take (need - j) := by
          rw [← List.drop_drop, ← List.take_add, Nat.add_sub_cancel' (by omega)]
        refine ⟨t', ?_, i2, by rw [i3, e1, List.length_append, hl]; omega⟩
        rw [hl, i1, e1, List.append_assoc]
        by_cases hc : need ≤ d.length - place t
        · rw [if_pos hc, if_pos (by omega)]
        · rw [if_neg hc, if_neg (by omega)]
      · exact .inr ⟨t', b, e, i1, i2⟩
    · generalize k.src.read (k.ask need) t = x at h2 h3 h4
      obtain ⟨o, t1⟩ := x
      simp only at h2 h3 h4
      subst h2
      left
      refine ⟨t1, ?_, h4, by rw [List.drop_of_length_le h1, List.take_nil]; exact h3⟩
      have : (d.drop (place t)).take need = [] := by rw [List.drop_of_length_le h1, List.take_nil]
      rw [this]
      simp only [List.append_nil, List.length_nil]
      rw [if_neg (by omega), if_neg (by omega)]
    · generalize k.src.read (k.ask need) t = x at h1 h2
      obtain ⟨o, t1⟩ := x
      simp only at h1 h2
      subst h1
      right
      refine ⟨t1, got ++ [], e, ?_, h2⟩
      simp only [List.length_nil]
      rw [if_neg (by omega)]

/-- the program for a box that is copied -/
abbrev copyProg (d : Bytes) (bi : BoxInfo) : EProg := call noFaults (.copy d bi) (.stream (fun _ => bi.offset + bi.size) fun _ => .ret ())

theorem copyBoxTo_simA (hk : Reads k d place failed) (m : BoxMap) (path : List BoxType) (bi : BoxInfo) (ch : Nat → Unit → TM St Unit (List Unit)) (co : Nat) :
    SimA place failed (copyBoxTo k bi) (Mp4.runProg m d path bi ch (copyProg d bi) co) := by
  intro t ht
  unfold copyBoxTo
  have hm : Mp4.runProg m d path bi ch (copyProg d bi) co (abT place t) =
      match Writer.copyBox noFaults d bi t.user.w with
      | (.ok _, w) => (.ok (), ⟨bi.offset + bi.size, { t.user with w := w }, t.log⟩)
      | (.err e, w) => (.err e, ⟨place t.src, { t.user with w := w }, t.log⟩)
      | (.panic, w) => (.err .eof, ⟨place t.src, ⟨w, some .panic⟩, t.log⟩)
      | (.hang, w) => (.err .eof, ⟨place t.src, ⟨w, some .hang⟩, t.log⟩) := by
    unfold copyProg call
    rw [Mp4.runProg, M.bind_ok (M.get_run _)]
    simp only [WOp.run]
    rw [M.bind_run]
    rw [show (abT place t).user = t.user from rfl]
    generalize Writer.copyBox noFaults d bi t.user.w = x
    obtain ⟨o, w⟩ := x
    cases o <;> rfl
  rw [hm]
  unfold Writer.copyBox
  rcases liftT_sim (S := St) (V := Unit) (seekStart_simP hk bi.offset) t ht with ⟨h1, h2⟩ | ⟨e, h1, h2⟩
  · rw [M.bind_run]
    unfold liftP seekStartP at h2
    unfold seekStartP
    generalize hx : (liftT (seekStart k.src bi.offset) : M (TS σ St Unit) Nat) t = x at h1 h2
    obtain ⟨o, t1⟩ := x
    by_cases hc : 2 ^ 63 ≤ bi.offset % U64
    · simp only [if_pos hc] at h2 ⊢
      injection h2 with h3 h4
      subst h3
      left
      refine ⟨h1, place t.src, ?_⟩
      have e1 : t1.user = t.user := congrArg TSt.user h4.symm
      have e2 : t1.log = t.log := congrArg TSt.log h4.symm
      simp only [abT, e1, e2]
    · simp only [if_neg hc] at h2 ⊢
      injection h2 with h3 h4
      subst h3
      have e1 : t1.user = t.user := congrArg TSt.user h4.symm
      have e2 : t1.log = t.log := congrArg TSt.log h4.symm
      have e3 : place t1.src = bi.offset % U64 := congrArg TSt.pos h4.symm
      simp only
      rw [M.bind_run]
      rcases copyOut_any hk ((int64 bi.size).toNat + k.fuel) (int64 bi.size).toNat [] t1.src h1 (by rw [hk.fuel]; omega) with ⟨t2, i1, i2, -⟩ | ⟨t2, b, e, i1, i2⟩
      · left
        have e4 : (liftT (copyOut k.src k.ask ((int64 bi.size).toNat + k.fuel) (int64 bi.size).toNat []) : M (TS σ St Unit) _) t1 = (.ok ((d.drop (bi.offset % U64)).take (int64 bi.size).toNat, if (int64 bi.size).toNat ≤ d.length - bi.offset % U64 then none else some .eof), { t1 with src := t2 }) := by
          unfold liftT
          rw [i1, e3]
          rfl
        rw [e4]
        simp only
        rw [M.bind_ok (M.get_run _)]
        simp only
        unfold copyNW
        generalize hb : (d.drop (bi.offset % U64)).take (int64 bi.size).toNat = b
        have hbl : b.length = min (int64 bi.size).toNat (d.length - bi.offset % U64) := by rw [← hb, List.length_take, List.length_drop]
        obtain ⟨calls, e5⟩ := copyLoop_ok b.length b 0 t.user.w (Nat.le_refl _)
        rw [e1, e5]
        simp only
        rw [M.bind_ok (M.modify_run _ _), M.bind_run, M.bind_ok e5]
        by_cases hd : (int64 bi.size).toNat ≤ d.length - bi.offset % U64
        · rw [if_pos hd]
          simp only
          by_cases hn : (b.length : Int) = int64 bi.size
          · rw [if_neg (by simpa using hn), if_pos (by simpa using hn)]
            refine ⟨i2, bi.offset + bi.size, ?_⟩
            simp only [abT, e2]
            rw [show (pure (int64 bi.size) : WrM Int) = fun s => (.ok (int64 bi.size), s) from rfl]
            simp
          · rw [if_pos hn, if_neg (by simpa using hn), if_neg (by omega)]
            refine ⟨i2, place t.src, ?_⟩
            simp only [abT, e2]
            rw [show (pure ((0 + b.length : Nat) : Int) : WrM Int) = fun s => (.ok ((0 + b.length : Nat) : Int), s) from rfl]
            simp only
            rw [if_pos (by simpa using hn)]
            rfl
        · rw [if_neg hd]
          simp only
          rw [if_neg (by omega), if_pos (by omega)]
          exact ⟨i2, place t.src, by simp only [abT, e2]; rfl⟩
      · right
        have e4 : (liftT (copyOut k.src k.ask ((int64 bi.size).toNat + k.fuel) (int64 bi.size).toNat []) : M (TS σ St Unit) _) t1 = (.ok (b, some e), { t1 with src := t2 }) := by
          unfold liftT
          rw [i1]
        rw [e4]
        simp only
        rw [M.bind_ok (M.get_run _)]
        simp only
        obtain ⟨calls, e5⟩ := copyLoop_ok b.length b 0 t1.user.w (Nat.le_refl _)
        rw [e5]
        simp only
        rw [M.bind_ok (M.modify_run _ _)]
        exact ⟨e, i2, .inl rfl⟩
  · right
    rw [M.bind_run]
    generalize (liftT (seekStart k.src bi.offset) : M (TS σ St Unit) Nat) t = x at h1 h2
    obtain ⟨o, t'⟩ := x
    simp only at h1 h2
    rcases h2 with h2 | h2 | h2 <;> · subst h2; exact ⟨e, h1, by simp [Reported]⟩

/-! ## The programs -/

theorem call_plain (o : WOp) {g : EProg} (h : Plain g) : Plain (call noFaults o g) := by
  intro s
  dsimp only
  generalize o.run noFaults s.w = x
  obtain ⟨r, w⟩ := x
  cases r with
  | ok a => exact h
  | err e => trivial
  | panic => trivial
  | hang => trivial

theorem edit_plain (cfg : Config) (bi : BoxInfo) : Plain (call noFaults (.start bi) (.readPayload (Edit.withPayload noFaults cfg bi))) := by
  refine call_plain _ (g := .readPayload _) ⟨fun _ => rfl, fun a => ?_⟩
  obtain ⟨box, n⟩ := a
  unfold Edit.withPayload
  dsimp only
  cases editFields cfg bi.type box with
  | none => exact fun _ => trivial
  | some sv =>
    refine call_plain _ (g := .expand () _) ⟨fun _ => rfl, fun _ => call_plain _ (g := .ret ()) trivial⟩

theorem rewrite_plain (go : String) (f : SV → SV) (bi : BoxInfo) : Plain (call noFaults (.start bi) (.readPayload (Rewrite.withPayload noFaults go f bi))) := by
  refine call_plain _ (g := .readPayload _) ⟨fun _ => rfl, fun a => ?_⟩
  obtain ⟨box, n⟩ := a
  unfold Rewrite.withPayload
  dsimp only
  cases box.assert go with
  | none => exact fun _ => trivial
  | some sv => exact call_plain _ (call_plain _ (g := .ret ()) trivial)

theorem editAct_simA (hk : Reads k d place failed) (cfg : Config) (bi : BoxInfo) (path : List BoxType) (p : Unit)
    (chs : Nat → Unit → M (TS σ St Unit) (List Unit)) (ch : Nat → Unit → TM St Unit (List Unit)) (hch : ∀ co p, SimE place failed (chs co p) (ch co p)) :
    SimA place failed (editAct k cfg bi path p chs) (Mp4.runProg BoxMap.std d path bi ch (Edit.handler noFaults d cfg ⟨p, bi, path⟩) 0) := by
  unfold editAct Edit.handler
  by_cases h1 : exists_ cfg.dropBoxes bi.type.toStr = true
  · simp only [if_pos h1]
    exact (SimE.of (sim_pure _)).toA
  · simp only [if_neg h1]
    by_cases h2 : (!BoxMap.std.isSupported bi.type bi.ctx || decide (bi.type = tMdat)) = true
    · simp only [if_pos h2]
      exact copyBoxTo_simA hk _ _ _ _ _
    · simp only [if_neg h2]
      exact (runProg_simE hk _ _ _ hch _ 0 (edit_plain cfg bi)).toA

theorem rewriteAct_simA (hk : Reads k d place failed) (ty : BoxType) (go : String) (f : SV → SV) (bi : BoxInfo) (path : List BoxType) (p : Unit)
    (chs : Nat → Unit → M (TS σ St Unit) (List Unit)) (ch : Nat → Unit → TM St Unit (List Unit)) (hch : ∀ co p, SimE place failed (chs co p) (ch co p)) :
    SimA place failed (rewriteAct k ty go f bi path p chs) (Mp4.runProg BoxMap.std d path bi ch (Rewrite.handler noFaults d ty go f ⟨p, bi, path⟩) 0) := by
  unfold rewriteAct Rewrite.handler
  by_cases h1 : bi.type = ty
  · simp only [if_pos h1]
    exact (runProg_simE hk _ _ _ hch _ 0 (rewrite_plain go f bi)).toA
  · simp only [if_neg h1]
    exact copyBoxTo_simA hk _ _ _ _ _

theorem writing_any (hk : Reads k d place failed) (act : Act σ St Unit Unit) (h : Handler St Unit Unit)
    (hact : ∀ bi path p (chs : Nat → Unit → M (TS σ St Unit) (List Unit)) (ch : Nat → Unit → TM St Unit (List Unit)), (∀ co p, SimE place failed (chs co p) (ch co p)) →
      SimA place failed (act bi path p chs) (Mp4.runProg BoxMap.std d path bi ch (h ⟨p, bi, path⟩) 0))
    (fuel : Nat) (t : σ) (ht : failed t = none) (h0 : place t = 0) :
    (failed (writing k act fuel t).2.2 = none ∧ ((writing k act fuel t).1, (writing k act fuel t).2.1) =
      match Mp4.readBoxStructure BoxMap.std d h fuel () ⟨0, ⟨WrSt.new ⟨[], 0, 0⟩, none⟩, []⟩ with
      | (.ok _, s) => (.ok (), s.user.w.file.data)
      | (.err e, s) => (((s.user.stop).map Stop.out).getD (.err e), s.user.w.file.data)
      | (.panic, s) => (.panic, s.user.w.file.data)
      | (.hang, s) => (.hang, s.user.w.file.data)) ∨
    ∃ e, failed (writing k act fuel t).2.2 = some e ∧ (writing k act fuel t).1 ≠ .ok () := by
  unfold writing
  have hs := simE_bind (SimE.of (liftT_sim (S := St) (V := Unit) (seekStart_simP hk 0))) fun _ =>
    readStructureAct_simE hk BoxMap.std h act hact fuel none 0 true [] {} ()
  rcases hs ⟨t, ⟨WrSt.new ⟨[], 0, 0⟩, none⟩, []⟩ ht with ⟨h1, p, h2, -⟩ | ⟨e, h1, h2⟩
  · left
    rw [show abT place ⟨t, ⟨WrSt.new ⟨[], 0, 0⟩, none⟩, []⟩ = (⟨0, ⟨WrSt.new ⟨[], 0, 0⟩, none⟩, []⟩ : TSt St Unit) by unfold abT; rw [h0]] at h2
    have h2' : Mp4.readBoxStructure BoxMap.std d h fuel () ⟨0, ⟨WrSt.new ⟨[], 0, 0⟩, none⟩, []⟩ = _ := h2
    rw [h2']
    generalize (liftT (seekStart k.src 0) >>= fun _ => readStructureAct k BoxMap.std act fuel none 0 true [] {} ()) (⟨t, ⟨WrSt.new ⟨[], 0, 0⟩, none⟩, []⟩ : TS σ St Unit) = x at h1
    obtain ⟨o, s⟩ := x
    cases o <;> exact ⟨h1, rfl⟩
  · right
    generalize (liftT (seekStart k.src 0) >>= fun _ => readStructureAct k BoxMap.std act fuel none 0 true [] {} ()) (⟨t, ⟨WrSt.new ⟨[], 0, 0⟩, none⟩, []⟩ : TS σ St Unit) = x at h1 h2
    obtain ⟨o, s⟩ := x
    simp only at h1 h2
    have : ∃ x, o = .err x := by rcases h2 with h | h | h <;> exact ⟨_, h⟩
    obtain ⟨x, rfl⟩ := this
    refine ⟨e, h1, ?_⟩
    simp only
    cases s.user.stop with
    | none => exact fun h => nomatch h
    | some st => cases st <;> exact fun h => nomatch h

end Mp4.Src
