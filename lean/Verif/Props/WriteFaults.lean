import Verif.Lemmas.WriteFaults
import Verif.Props.Marshal
import Verif.Props.Rewrite

/-!
# C73: success means that everything has been written
-/

namespace Mp4.Props

open Mp4 Mp4.Edit Mp4.Rewrite Mp4.Spec

/-! ## Specification -/

/-- Once a `Write` to the destination fails, all later ones do. -/
def Lasting (F : Faults) : Prop := ∀ m n, m ≤ n → F.write m ≠ none → F.write n ≠ none

/-- The call does not encode a value of a type in `mayLoseErrors` (and a value that is encoded has the Go type of the box). -/
def Careful : WOp → Prop
  | .marshal bd _ sv => bd ∈ Cat.allDefs ∧ bd.goName ∉ mayLoseErrors ∧ typedFields bd.fields sv = true
  | _ => True

/-- A call that writes to the destination itself: `StartBox`, `EndBox`, `Write`. -/
def Direct : WOp → Prop
  | .start _ => True
  | .close => True
  | .write _ => True
  | _ => False

/-! ## Calls -/

theorem marshal_run_inv {F : Faults} {bd : BoxDef} {ctx : Ctx} {sv : SV} {s s' : WrSt} {r : Option BoxInfo}
    (h : (WOp.marshal bd ctx sv).run F s = (.ok r, s')) : r = none ∧ ∃ n, marshalBox bd (writerSink F) ctx sv s = (.ok n, s') := by
  simp only [WOp.run] at h
  cases e : marshalBox bd (writerSink F) ctx sv s with
  | mk x t =>
    rw [e] at h
    cases x with
    | ok n => cases h; exact ⟨rfl, n, rfl⟩
    | err e => cases h
    | panic => cases h
    | hang => cases h

/-- A call that succeeds would have had the same effect without failures — unless it is one of `Marshal` and a `Write` failed. -/
theorem op_same (F : Faults) (o : WOp) (s s' : WrSt) (r : Option BoxInfo) (h : o.run F s = (.ok r, s')) :
    s.file.calls ≤ s'.file.calls ∧ (o.run noFaults s = (.ok r, s') ∨ (¬ Direct o ∧ WroteBadly F s s')) := by
  have key : ∀ {m n : WrM (Option BoxInfo)}, OkSame callsW m n → m s = (.ok r, s') →
      s.file.calls ≤ s'.file.calls ∧ (n s = (.ok r, s') ∨ (¬ Direct o ∧ WroteBadly F s s')) := by
    intro m n hs h
    obtain ⟨h1, h2⟩ := hs s r s' h
    exact ⟨h2, .inl h1⟩
  cases o with
  | start bi => exact key (OkSame.bind (same_startBox F bi) fun _ => .pure _) h
  | write p => exact key (OkSame.bind (same_write F p) fun _ => .pure _) h
  | close => exact key (OkSame.bind (same_endBox F) fun _ => .pure _) h
  | copy src bi => exact key (OkSame.bind (same_copyBox F src bi) fun _ => .pure _) h
  | marshal bd ctx sv =>
    obtain ⟨rfl, n, e⟩ := marshal_run_inv h
    have hc := marshal_calls F bd ctx sv s
    have hs := marshal_same F bd ctx sv s
    rw [e] at hc hs
    refine ⟨hc, hs.elim (fun hb => .inr ⟨id, hb⟩) (fun hs => .inl ?_)⟩
    simp only [WOp.run, ← hs]

/-- The same for calls of which `Marshal` does not lose errors. -/
theorem op_careful (F : Faults) (o : WOp) (ho : Careful o) (s s' : WrSt) (r : Option BoxInfo) (h : o.run F s = (.ok r, s')) :
    o.run noFaults s = (.ok r, s') := by
  rcases (op_same F o s s' r h).2 with h1 | ⟨hd, hb⟩
  · exact h1
  · cases o with
    | start bi => exact absurd trivial hd
    | write p => exact absurd trivial hd
    | close => exact absurd trivial hd
    | copy src bi => exact (OkSame.bind (same_copyBox F src bi) (fun _ => .pure _) s r s' h).1
    | marshal bd ctx sv =>
      obtain ⟨rfl, n, e⟩ := marshal_run_inv h
      exact absurd hb (marshal_honest ho.1 ho.2.1 F ctx sv ho.2.2 s s' n e)

/-- A call that writes itself and succeeds has made a `Write` that did not fail. -/
theorem direct_wrote (F : Faults) (o : WOp) (ho : Direct o) (s s' : WrSt) (r : Option BoxInfo) (h : o.run F s = (.ok r, s')) :
    ∃ n, s.file.calls ≤ n ∧ F.write n = none := by
  have hw : ∀ (p : Bytes) (a b : FSt) (v : Unit), fWrite F p a = (.ok v, b) → F.write a.calls = none := by
    intro p a b v h
    unfold fWrite at h
    split at h
    · next h1 => exact h1
    · cases h
  have hi : ∀ (bi x : BoxInfo) (a b : WrSt), liftF (writeBoxInfo F bi) a = (.ok x, b) → ∃ n, a.file.calls ≤ n ∧ F.write n = none := by
    intro bi x a b h
    unfold liftF at h
    cases e : writeBoxInfo F bi a.file with
    | mk r f =>
      rw [e] at h
      cases h
      obtain ⟨off, f1, e1, e2⟩ := bind_ok_inv e
      obtain ⟨u, f2, e3, e4⟩ := bind_ok_inv e2
      exact ⟨f1.calls, (same_fSeekCur F _ _ _ e1).2, hw _ _ _ _ e3⟩
  cases o with
  | start bi =>
    obtain ⟨x, s1, e1, _⟩ := bind_ok_inv h
    obtain ⟨y, s2, e2, _⟩ := bind_ok_inv e1
    exact hi _ _ _ _ e2
  | write p =>
    obtain ⟨x, s1, e1, _⟩ := bind_ok_inv h
    unfold Writer.write liftF at e1
    cases e : fWrite F p s.file with
    | mk r f =>
      rw [e] at e1
      cases e1
      exact ⟨_, Nat.le_refl _, hw _ _ _ _ e⟩
  | close =>
    obtain ⟨x, s1, e1, _⟩ := bind_ok_inv h
    unfold Writer.endBox at e1
    obtain ⟨b1, s2, e2, e1⟩ := bind_ok_inv e1
    obtain ⟨b2, s3, e3, e1⟩ := bind_ok_inv e1
    obtain ⟨b3, s4, e4, e1⟩ := bind_ok_inv e1
    obtain ⟨b4, s5, e5, e1⟩ := bind_ok_inv e1
    obtain ⟨n, h1, h2⟩ := hi _ _ _ _ e5
    have h3 := (same_liftF (same_fSeekCur F) _ _ _ e3).2
    have h4 := (same_liftF (same_fSeekStart F _) _ _ _ e4).2
    have h5 : callsW s2 = callsW s := by
      unfold Writer.pop at e2
      split at e2 <;> cases e2
      rfl
    simp only [callsW] at *
    exact ⟨n, by omega, h2⟩
  | copy src bi => exact absurd ho id
  | marshal bd ctx sv => exact absurd ho id

theorem runOps_cons_inv {F : Faults} {o : WOp} {os : List WOp} {s s' : WrSt} {rs : List (Option BoxInfo)}
    (h : runOps F (o :: os) s = (.ok rs, s')) :
    ∃ r s1 rs', o.run F s = (.ok r, s1) ∧ runOps F os s1 = (.ok rs', s') ∧ rs = r :: rs' := by
  obtain ⟨r, s1, e1, h⟩ := bind_ok_inv h
  obtain ⟨rs', s2, e2, h⟩ := bind_ok_inv h
  rw [M.pure_run] at h
  cases h
  exact ⟨r, s1, rs', e1, e2, rfl⟩

theorem runOps_calls {F : Faults} : ∀ {os : List WOp} {s s' : WrSt} {rs : List (Option BoxInfo)},
    runOps F os s = (.ok rs, s') → s.file.calls ≤ s'.file.calls
  | [], s, s', rs, h => by cases h; exact Nat.le_refl _
  | o :: os, s, s', rs, h => by
    obtain ⟨r, s1, rs', e1, e2, _⟩ := runOps_cons_inv h
    exact Nat.le_trans (op_same F o s s1 r e1).1 (runOps_calls e2)

/-- **C73**, for calls that do not lose errors — Whatever the destination does: if a sequence of calls of a writer (`StartBox`, `EndBox`, `Write`, `CopyBox` and
`Marshal` into it) succeeds, then results and file are those of a destination that never fails. -/
theorem writer_success_partial (F : Faults) : ∀ (os : List WOp), (∀ o ∈ os, Careful o) → ∀ (s s' : WrSt) (rs : List (Option BoxInfo)),
    runOps F os s = (.ok rs, s') → runOps noFaults os s = (.ok rs, s')
  | [], _, s, s', rs, h => h
  | o :: os, ho, s, s', rs, h => by
    obtain ⟨r, s1, rs', e1, e2, rfl⟩ := runOps_cons_inv h
    have h1 := op_careful F o (ho o List.mem_cons_self) s s1 r e1
    have h2 := writer_success_partial F os (fun o h => ho o (List.mem_cons_of_mem _ h)) s1 s' rs' e2
    exact runOps_cons h1 h2

theorem runOps_before {F : Faults} : ∀ {os : List WOp} {s s' : WrSt} {rs : List (Option BoxInfo)},
    runOps F os s = (.ok rs, s') → (∀ n, n < s'.file.calls → F.write n = none) → runOps noFaults os s = (.ok rs, s')
  | [], s, s', rs, h, _ => h
  | o :: os, s, s', rs, h, hf => by
    obtain ⟨r, s1, rs', e1, e2, rfl⟩ := runOps_cons_inv h
    have hc := runOps_calls e2
    rcases (op_same F o s s1 r e1).2 with h1 | ⟨_, n, _, h2, h3⟩
    · exact runOps_cons h1 (runOps_before e2 hf)
    · exact absurd (hf n (by omega)) h3

theorem lasting_clean {F : Faults} (hF : Lasting F) {n k : Nat} (hk : k ≤ n) (h : F.write n = none) : ∀ m, m < k → F.write m = none := by
  intro m hm
  cases e : F.write m with
  | none => rfl
  | some x => exact absurd h (hF m n (by omega) (by rw [e]; exact Option.some_ne_none _))

theorem runOps_append_inv {F : Faults} : ∀ {a b : List WOp} {s s' : WrSt} {rs : List (Option BoxInfo)}, runOps F (a ++ b) s = (.ok rs, s') →
    ∃ r1 s1 r2, runOps F a s = (.ok r1, s1) ∧ runOps F b s1 = (.ok r2, s') ∧ rs = r1 ++ r2
  | [], b, s, s', rs, h => ⟨[], s, rs, rfl, h, rfl⟩
  | o :: a, b, s, s', rs, h => by
    obtain ⟨r, s1, rs', e1, e2, rfl⟩ := runOps_cons_inv h
    obtain ⟨r1, s2, r2, e3, e4, rfl⟩ := runOps_append_inv e2
    exact ⟨r :: r1, s2, r2, runOps_cons e1 e3, e4, rfl⟩

/-- **C73**, for all box types — If the destination keeps failing once it has failed, and the last call is one of `StartBox`, `EndBox` or
`Write` (a box that was begun has been ended), the same holds for calls of `Marshal` with any box. -/
theorem writer_success_lasting (F : Faults) (hF : Lasting F) (os : List WOp) (o : WOp) (ho : Direct o) (s s' : WrSt) (rs : List (Option BoxInfo))
    (h : runOps F (os ++ [o]) s = (.ok rs, s')) : runOps noFaults (os ++ [o]) s = (.ok rs, s') := by
  obtain ⟨r1, s1, r2, e1, e2, rfl⟩ := runOps_append_inv h
  obtain ⟨r, s2, rs', e3, e4, rfl⟩ := runOps_cons_inv e2
  obtain ⟨n, hn, hw⟩ := direct_wrote F o ho s1 s2 r e3
  have h1 := runOps_before e1 (lasting_clean hF hn hw)
  refine runOps_append h1 (runOps_cons ?_ e4)
  exact (op_same F o s1 s2 r e3).2.resolve_right fun h => h.1 ho

/-- **C73**, with C28 — A tree of boxes: if the calls that write it succeed, whatever the destination does, the file holds what it should. -/
theorem writer_success_tree (F : Faults) (t : WTree) (hf : t.Fits) (hc : ∀ o ∈ t.ops, Careful o) (s s' : WrSt) (rs : List (Option BoxInfo))
    (hl : s.file.pos + t.ser.length < 2 ^ 63) (h : runOps F t.ops s = (.ok rs, s')) :
    s'.file.data = writeAt s.file.data s.file.pos t.ser ∧ s'.file.pos = s.file.pos + t.ser.length ∧ rs = t.results s.file.pos := by
  obtain ⟨calls, e⟩ := tree_ok t s hf hl
  have := (writer_success_partial F t.ops hc s s' rs h).symm.trans e
  cases this
  exact ⟨rfl, rfl, rfl⟩

/-- `StartBox`, `Marshal`, `EndBox` for an `stco` box with one offset -/
def stcoCalls : List WOp := [.start { type := ⟨0x73, 0x74, 0x63, 0x6f⟩ },
  .marshal Cat.bdStco {} [fullBox 0 0 0 0, ("EntryCount", .uint 1), ("ChunkOffset", .slice [.uint 0x01020304])], .close]

/-- Call number 11 fails. -/
def once : Faults := ⟨fun n => if n = 11 then some 0 else none, fun _ => false⟩

/-- **C73** fails for lists and destinations that fail once: three of the four bytes of the offset are lost, although all calls succeed. -/
theorem writer_success_lost :
    (runOps once stcoCalls (WrSt.new ⟨[], 0, 0⟩)).1.isOk = true ∧
    (runOps once stcoCalls (WrSt.new ⟨[], 0, 0⟩)).2.file.data = [0, 0, 0, 17, 0x73, 0x74, 0x63, 0x6f, 0, 0, 0, 0, 0, 0, 0, 1, 1] ∧
    (runOps noFaults stcoCalls (WrSt.new ⟨[], 0, 0⟩)).2.file.data = [0, 0, 0, 20, 0x73, 0x74, 0x63, 0x6f, 0, 0, 0, 0, 0, 0, 0, 1, 1, 2, 3, 4] := by decide +kernel

/-! ## Traversals with a writer -/

section
variable {S P V α β : Type} {m : BoxMap} {d : Bytes}

/-- the counter in the variables of a handler -/
def counter (c : S → Nat) (st : TSt S V) : Nat := c st.user

theorem same_liftP (c : S → Nat) (x : PM α) : OkSame (counter c) (liftP x : TM S V α) (liftP x) := by
  refine .same _ fun a => ?_
  unfold liftP
  cases x a.pos
  rfl

theorem same_emit (c : S → Nat) (e : Ev V) : OkSame (counter c) (emit e : TM S V Unit) (emit e) := .same _ fun _ => rfl

theorem same_try (c : S → Nat) (x : PM α) : OkSame (counter c) (tryM (liftP x) : TM S V (Except Err α)) (tryM (liftP x)) := by
  refine .same _ fun a => ?_
  unfold tryM liftP
  cases e : x a.pos with
  | mk r p => cases r <;> rfl

/-- an error that is handed on -/
theorem same_tryThen {c : S → Nat} {x y : TM S V α} {ev : Except Err α → Ev V} {k l : α → TM S V β} (h : OkSame (counter c) x y)
    (hk : ∀ v, OkSame (counter c) (k v) (l v)) :
    OkSame (counter c) (do let r ← tryM x; emit (ev r); let v ← ofExcept r; k v) (do let r ← tryM y; emit (ev r); let v ← ofExcept r; l v) := by
  intro a w s h0
  obtain ⟨r, s1, h1, h2⟩ := bind_ok_inv h0
  obtain ⟨u, s2, h3, h4⟩ := bind_ok_inv h2
  obtain ⟨v, s3, h5, h6⟩ := bind_ok_inv h4
  cases r with
  | error e => cases h5
  | ok v' =>
    have h5' := h5
    cases h5
    have hx : x a = (.ok v, s1) := by
      unfold tryM at h1
      cases e : x a with
      | mk r t =>
        rw [e] at h1
        cases r <;> cases h1
        rfl
    obtain ⟨hy, c1⟩ := h _ _ _ hx
    have hy' : tryM y a = (.ok (.ok v), s1) := by unfold tryM; rw [hy]
    obtain ⟨e3, c3⟩ := same_emit c _ _ _ _ h3
    obtain ⟨e6, c6⟩ := hk v _ _ _ h6
    exact ⟨(M.bind_ok hy').trans ((M.bind_ok e3).trans ((M.bind_ok h5').trans e6)), Nat.le_trans c1 (Nat.le_trans c3 c6)⟩

/-- The programs of two handlers: if the first returns a value, so does the second, with the same effects, given that this is so for the children.  `Ok`: what is known of the
boxes. -/
def SameHandlers (c : S → Nat) (m : BoxMap) (d : Bytes) (Ok : BoxInfo → Prop) (h1 h2 : Handler S P V) : Prop :=
  ∀ (p : P) (path : List BoxType) (bi : BoxInfo) (ch1 ch2 : Nat → P → TM S V (List V)), Ok bi →
    (∀ co p, OkSame (counter c) (ch1 co p) (ch2 co p)) →
    OkSame (counter c) (runProg m d path bi ch1 (h1 ⟨p, bi, path⟩) 0) (runProg m d path bi ch2 (h2 ⟨p, bi, path⟩) 0)

/-- What is known of boxes holds of those that are read, and does not depend on the context. -/
def Known (d : Bytes) (Ok : BoxInfo → Prop) : Prop :=
  (∀ pos p bi, readBoxInfo d pos = (.ok bi, p) → Ok bi) ∧ ∀ bi ctx, Ok bi → Ok { bi with ctx := ctx }

theorem checkFtyp_known {Ok : BoxInfo → Prop} (hc : ∀ bi ctx, Ok bi → Ok { bi with ctx := ctx }) {path : List BoxType} {bi bi' : BoxInfo} {pos p : Nat} (h0 : Ok bi)
    (h : checkFtyp m d path bi pos = (.ok bi', p)) : Ok bi' := by
  unfold checkFtyp at h
  split at h
  · obtain ⟨x, p1, _, h⟩ := bind_ok_inv h
    obtain ⟨y, p2, _, h⟩ := bind_ok_inv h
    rw [M.pure_run] at h
    cases h
    split
    · exact hc _ _ h0
    · exact h0
  · rw [M.pure_run] at h
    cases h
    exact h0

theorem checkKeys_known {Ok : BoxInfo → Prop} (hc : ∀ bi ctx, Ok bi → Ok { bi with ctx := ctx }) {bi bi' : BoxInfo} {pos p : Nat} (h0 : Ok bi)
    (h : checkKeys m d bi pos = (.ok bi', p)) : Ok bi' := by
  unfold checkKeys at h
  split at h
  · obtain ⟨x, p1, _, h⟩ := bind_ok_inv h
    obtain ⟨y, p2, _, h⟩ := bind_ok_inv h
    rw [M.pure_run] at h
    cases h
    exact hc _ _ h0
  · rw [M.pure_run] at h
    cases h
    exact h0

theorem OkSame.bind_liftP {c : S → Nat} {x : PM α} {k l : α → TM S V β} (hk : ∀ v pos p, x pos = (.ok v, p) → OkSame (counter c) (k v) (l v)) :
    OkSame (counter c) (liftP x >>= k) (liftP x >>= l) := by
  intro a w s h0
  obtain ⟨v, s1, h1, h2⟩ := bind_ok_inv h0
  have hx : ∃ p, x a.pos = (.ok v, p) := by
    unfold liftP at h1
    cases e : x a.pos with
    | mk r p =>
      rw [e] at h1
      cases h1
      exact ⟨p, rfl⟩
  obtain ⟨p, hx⟩ := hx
  obtain ⟨h3, c2⟩ := hk v _ p hx _ _ _ h2
  exact ⟨(M.bind_ok h1).trans h3, Nat.le_trans (same_liftP c x _ _ _ h1).2 c2⟩

theorem same_fromInternal {c : S → Nat} {Ok : BoxInfo → Prop} (hc : Known d Ok) {h1 h2 : Handler S P V} (hh : SameHandlers c m d Ok h1 h2)
    {rec1 rec2 : BoxInfo → Nat → List BoxType → Ctx → P → TM S V (List V)} (hr : ∀ a b x y p, OkSame (counter c) (rec1 a b x y p) (rec2 a b x y p))
    (parent : Option BoxInfo) (bi : BoxInfo) (hb : Ok bi) (path : List BoxType) (p : P) :
    OkSame (counter c) (fromInternal m d h1 rec1 parent bi path p) (fromInternal m d h2 rec2 parent bi path p) := by
  unfold fromInternal
  refine .bind (same_liftP c _) fun _ => OkSame.bind_liftP fun bi1 _ _ e1 => OkSame.bind_liftP fun bi2 _ _ e2 => .bind (same_emit c _) fun _ => ?_
  exact same_tryThen (ev := fun r => .leave parent (path ++ [bi2.type]) bi2 r)
    (hh _ _ _ _ _ (checkKeys_known hc.2 (checkFtyp_known hc.2 hb e1) e2) fun co p => hr _ _ _ _ _) fun v => .bind (same_liftP c _) fun _ => .pure _

theorem OkSame.bind_try {c : S → Nat} {x : PM α} {k l : Except Err α → TM S V β} (he : ∀ e, OkSame (counter c) (k (.error e)) (l (.error e)))
    (hk : ∀ v pos p, x pos = (.ok v, p) → OkSame (counter c) (k (.ok v)) (l (.ok v))) :
    OkSame (counter c) (tryM (liftP x) >>= k) (tryM (liftP x) >>= l) := by
  intro a w s h0
  obtain ⟨r, s1, h1, h2⟩ := bind_ok_inv h0
  have c1 := (same_try c x _ _ _ h1).2
  cases r with
  | error e =>
    obtain ⟨h3, c2⟩ := he e _ _ _ h2
    exact ⟨(M.bind_ok h1).trans h3, Nat.le_trans c1 c2⟩
  | ok v =>
    have hx : ∃ p, x a.pos = (.ok v, p) := by
      unfold tryM liftP at h1
      cases e : x a.pos with
      | mk r p =>
        rw [e] at h1
        cases r <;> cases h1
        exact ⟨p, rfl⟩
    obtain ⟨p, hx⟩ := hx
    obtain ⟨h3, c2⟩ := hk v _ p hx _ _ _ h2
    exact ⟨(M.bind_ok h1).trans h3, Nat.le_trans c1 c2⟩

theorem same_structure {c : S → Nat} {Ok : BoxInfo → Prop} (hc : Known d Ok) {h1 h2 : Handler S P V} (hh : SameHandlers c m d Ok h1 h2) :
    ∀ (fuel : Nat) (parent : Option BoxInfo) (total : Nat) (isRoot : Bool) (path : List BoxType) (ctx : Ctx) (p : P),
      OkSame (counter c) (readStructure m d h1 fuel parent total isRoot path ctx p) (readStructure m d h2 fuel parent total isRoot path ctx p)
  | 0, _, _, _, _, _, _ => by
    intro a v s h
    cases h
  | fuel + 1, parent, total, isRoot, path, ctx, p => by
    rw [readStructure, readStructure]
    split
    · refine OkSame.bind_try (fun e => ?_) fun bi pos q e => ?_
      · simp only
        split
        · exact .pure _
        · exact .fail _ _
      · simp only
        split
        · exact .fail _ _
        · refine .bind (same_fromInternal hc hh (fun _ _ _ _ _ => same_structure hc hh fuel _ _ _ _ _ _) _ _ (hc.2 _ _ (hc.1 _ _ _ e)) _ _) fun x => ?_
          exact .bind (same_structure hc hh fuel _ _ _ _ _ _) fun _ => .pure _
    · split
      · exact .fail _ _
      · exact .pure _

theorem same_readBoxStructure {c : S → Nat} {Ok : BoxInfo → Prop} (hc : Known d Ok) {h1 h2 : Handler S P V} (hh : SameHandlers c m d Ok h1 h2) (fuel : Nat) (p : P) :
    OkSame (counter c) (readBoxStructure m d h1 fuel p) (readBoxStructure m d h2 fuel p) :=
  .bind (same_liftP c _) fun _ => same_structure hc hh fuel _ _ _ _ _ _

theorem known_true : Known d fun _ => True := ⟨fun _ _ _ _ => trivial, fun _ _ _ => trivial⟩

end

/-! ## `mp4tool edit` and the program of the README -/

/-- calls of the destination so far -/
def callsE (s : Edit.St) : Nat := s.w.file.calls

variable {d : Bytes}

theorem call_inv {m : BoxMap} {F : Faults} {path : List BoxType} {bi : BoxInfo} {ch : Nat → Unit → TM Edit.St Unit (List Unit)} {o : WOp} {k : EProg} {co : Nat}
    {st st' : TSt Edit.St Unit} {v : Unit} (h : runProg m d path bi ch (call F o k) co st = (.ok v, st')) :
    ∃ r w, o.run F st.user.w = (.ok r, w) ∧ runProg m d path bi ch k co { st with user := { st.user with w := w } } = (.ok v, st') := by
  have e1 : runProg m d path bi ch (call F o k) co st = runProg m d path bi ch
      (match o.run F st.user.w with
        | (.ok _, w) => .set { st.user with w := w } k
        | (.err e, w) => .set { st.user with w := w } (.err e)
        | (.panic, w) => .set ⟨w, some .panic⟩ (.err .eof)
        | (.hang, w) => .set ⟨w, some .hang⟩ (.err .eof)) co st := rfl
  rw [e1] at h
  cases e : o.run F st.user.w with
  | mk r w =>
    rw [e] at h
    cases r with
    | ok r => exact ⟨r, w, rfl, h⟩
    | err e => cases h
    | panic => cases h
    | hang => cases h

theorem call_ok {m : BoxMap} {F : Faults} {path : List BoxType} {bi : BoxInfo} {ch : Nat → Unit → TM Edit.St Unit (List Unit)} {o : WOp} {k : EProg} {co : Nat}
    {st : TSt Edit.St Unit} {r : Option BoxInfo} {w : WrSt} (h : o.run F st.user.w = (.ok r, w)) :
    runProg m d path bi ch (call F o k) co st = runProg m d path bi ch k co { st with user := { st.user with w := w } } := by
  have e1 : runProg m d path bi ch (call F o k) co st = runProg m d path bi ch
      (match o.run F st.user.w with
        | (.ok _, w) => .set { st.user with w := w } k
        | (.err e, w) => .set { st.user with w := w } (.err e)
        | (.panic, w) => .set ⟨w, some .panic⟩ (.err .eof)
        | (.hang, w) => .set ⟨w, some .hang⟩ (.err .eof)) co st := rfl
  rw [e1, h]
  rfl

/-- a call that has the same effect without failures -/
theorem same_call {m : BoxMap} {F : Faults} {path : List BoxType} {bi : BoxInfo} {ch1 ch2 : Nat → Unit → TM Edit.St Unit (List Unit)} {o : WOp}
    (ho : ∀ s s' r, o.run F s = (.ok r, s') → o.run noFaults s = (.ok r, s')) {k l : EProg} {co : Nat}
    (hk : OkSame (counter callsE) (runProg m d path bi ch1 k co) (runProg m d path bi ch2 l co)) :
    OkSame (counter callsE) (runProg m d path bi ch1 (call F o k) co) (runProg m d path bi ch2 (call noFaults o l) co) := by
  intro st v st' h
  obtain ⟨r, w, e, h⟩ := call_inv h
  obtain ⟨h1, h2⟩ := hk _ _ _ h
  refine ⟨(call_ok (ho _ _ _ e)).trans h1, Nat.le_trans (op_same F o _ _ _ e).1 h2⟩

theorem direct_same {F : Faults} {o : WOp} (ho : Careful o) (s s' : WrSt) (r : Option BoxInfo) (h : o.run F s = (.ok r, s')) : o.run noFaults s = (.ok r, s') :=
  op_careful F o ho s s' r h

theorem same_ret {m : BoxMap} {path : List BoxType} {bi : BoxInfo} {ch1 ch2 : Nat → Unit → TM Edit.St Unit (List Unit)} {co : Nat} :
    OkSame (counter callsE) (runProg m d path bi ch1 (.ret () : EProg) co) (runProg m d path bi ch2 (.ret ()) co) := .pure _

theorem same_readPayload {m : BoxMap} {path : List BoxType} {bi : BoxInfo} {ch1 ch2 : Nat → Unit → TM Edit.St Unit (List Unit)} {co : Nat}
    {k l : Except Err (BoxVal × Nat) → EProg}
    (he : ∀ e, OkSame (counter callsE) (runProg m d path bi ch1 (k (.error e)) co) (runProg m d path bi ch2 (l (.error e)) co))
    (hk : ∀ x pos p co, readPayloadP m d bi pos = (.ok x, p) →
      OkSame (counter callsE) (runProg m d path bi ch1 (k (.ok x)) co) (runProg m d path bi ch2 (l (.ok x)) co)) :
    OkSame (counter callsE) (runProg m d path bi ch1 (.readPayload k) co) (runProg m d path bi ch2 (.readPayload l) co) := by
  intro st v st' h
  rw [runProg] at h
  obtain ⟨r, s1, h1, h2⟩ := bind_ok_inv h
  obtain ⟨_, c1⟩ := same_try callsE _ _ _ _ h1
  cases r with
  | error e =>
    obtain ⟨h3, c2⟩ := he e _ _ _ h2
    refine ⟨?_, Nat.le_trans c1 c2⟩
    rw [runProg]
    exact (M.bind_ok h1).trans h3
  | ok x =>
    have hx : ∃ p, readPayloadP m d bi st.pos = (.ok x, p) := by
      unfold tryM liftP at h1
      cases e : readPayloadP m d bi st.pos with
      | mk r p =>
        rw [e] at h1
        cases r <;> cases h1
        exact ⟨p, rfl⟩
    obtain ⟨p, hx⟩ := hx
    obtain ⟨h3, c2⟩ := hk x _ p _ hx _ _ _ h2
    refine ⟨?_, Nat.le_trans c1 c2⟩
    rw [runProg]
    exact (M.bind_ok h1).trans h3

/-- Expanding a box, where an error is handed on. -/
theorem expand_inv {m : BoxMap} {path : List BoxType} {bi : BoxInfo} {ch : Nat → Unit → TM Edit.St Unit (List Unit)} {co : Nat} {k : EProg}
    {st st' : TSt Edit.St Unit} {v : Unit}
    (h : runProg m d path bi ch (.expand () fun r => match r with | .error e => .err e | .ok _ => k) co st = (.ok v, st')) :
    ∃ co' s1 s2 s3 s4 vs, tryM (liftP (expandStart m d bi co)) st = (.ok (.ok co'), s1) ∧ emit (.openBox path bi co') s1 = (.ok (), s2) ∧
      ch co' () s2 = (.ok vs, s3) ∧ emit (.closeBox path bi (.ok vs)) s3 = (.ok (), s4) ∧ runProg m d path bi ch k co' s4 = (.ok v, st') := by
  rw [runProg] at h
  obtain ⟨r, s1, h1, h2⟩ := bind_ok_inv h
  cases r with
  | error e => cases h2
  | ok co' =>
    simp only at h2
    obtain ⟨u, s2, h3, h4⟩ := bind_ok_inv h2
    obtain ⟨r, s3, h5, h6⟩ := bind_ok_inv h4
    obtain ⟨u', s4, h7, h8⟩ := bind_ok_inv h6
    cases r with
    | error e => cases h8
    | ok vs =>
      have hx : ch co' () s2 = (.ok vs, s3) := by
        unfold tryM at h5
        cases e : ch co' () s2 with
        | mk r t =>
          rw [e] at h5
          cases r <;> cases h5
          rfl
      exact ⟨co', s1, s2, s3, s4, vs, h1, h3, hx, h7, h8⟩

theorem same_expand {m : BoxMap} {path : List BoxType} {bi : BoxInfo} {ch1 ch2 : Nat → Unit → TM Edit.St Unit (List Unit)}
    (hch : ∀ co p, OkSame (counter callsE) (ch1 co p) (ch2 co p)) {co : Nat} {k l : EProg}
    (hk : ∀ co, OkSame (counter callsE) (runProg m d path bi ch1 k co) (runProg m d path bi ch2 l co)) :
    OkSame (counter callsE) (runProg m d path bi ch1 (.expand () fun r => match r with | .error e => .err e | .ok _ => k) co)
      (runProg m d path bi ch2 (.expand () fun r => match r with | .error e => .err e | .ok _ => l) co) := by
  intro st v st' h
  obtain ⟨co', s1, s2, s3, s4, vs, h1, h2, h3, h4, h5⟩ := expand_inv h
  obtain ⟨_, c1⟩ := same_try callsE _ _ _ _ h1
  obtain ⟨_, c2⟩ := same_emit callsE _ _ _ _ h2
  obtain ⟨e3, c3⟩ := hch _ _ _ _ _ h3
  obtain ⟨_, c4⟩ := same_emit callsE _ _ _ _ h4
  obtain ⟨e5, c5⟩ := hk _ _ _ _ h5
  refine ⟨?_, Nat.le_trans c1 (Nat.le_trans c2 (Nat.le_trans c3 (Nat.le_trans c4 c5)))⟩
  rw [runProg]
  have e3' : tryM (ch2 co' ()) s2 = (.ok (.ok vs), s3) := by unfold tryM; rw [e3]
  exact (M.bind_ok h1).trans ((M.bind_ok h2).trans ((M.bind_ok e3').trans ((M.bind_ok h4).trans e5)))

/-- The program succeeds only if a `Write` succeeds. -/
def Confirms (F : Faults) (m : TM Edit.St Unit Unit) : Prop := ∀ st v st', m st = (.ok v, st') → ∃ n, callsE st.user ≤ n ∧ F.write n = none

theorem confirms_direct {m : BoxMap} {F : Faults} {path : List BoxType} {bi : BoxInfo} {ch : Nat → Unit → TM Edit.St Unit (List Unit)} {o : WOp} (ho : Direct o)
    {k : EProg} {co : Nat} : Confirms F (runProg m d path bi ch (call F o k) co) := by
  intro st v st' h
  obtain ⟨r, w, e, h⟩ := call_inv h
  exact direct_wrote F o ho _ _ _ e

theorem confirms_expand {m : BoxMap} {F : Faults} {path : List BoxType} {bi : BoxInfo} {ch1 ch2 : Nat → Unit → TM Edit.St Unit (List Unit)}
    (hch : ∀ co p, OkSame (counter callsE) (ch1 co p) (ch2 co p)) {co : Nat} {k : EProg}
    (hk : ∀ co, Confirms F (runProg m d path bi ch1 k co)) :
    Confirms F (runProg m d path bi ch1 (.expand () fun r => match r with | .error e => .err e | .ok _ => k) co) := by
  intro st v st' h
  obtain ⟨co', s1, s2, s3, s4, vs, h1, h2, h3, h4, h5⟩ := expand_inv h
  have c1 := (same_try callsE _ _ _ _ h1).2
  have c2 := (same_emit callsE _ _ _ _ h2).2
  have c3 := (hch _ _ _ _ _ h3).2
  have c4 := (same_emit callsE _ _ _ _ h4).2
  obtain ⟨n, hn, hw⟩ := hk _ _ _ _ h5
  simp only [counter] at *
  exact ⟨n, by omega, hw⟩

/-- With a destination that keeps failing, a later `Write` that succeeds confirms any call. -/
theorem same_confirmed {m : BoxMap} {F : Faults} (hF : Lasting F) {path : List BoxType} {bi : BoxInfo} {ch1 ch2 : Nat → Unit → TM Edit.St Unit (List Unit)} {o : WOp}
    {k l : EProg} {co : Nat} (hc : Confirms F (runProg m d path bi ch1 k co))
    (hk : OkSame (counter callsE) (runProg m d path bi ch1 k co) (runProg m d path bi ch2 l co)) :
    OkSame (counter callsE) (runProg m d path bi ch1 (call F o k) co) (runProg m d path bi ch2 (call noFaults o l) co) := by
  intro st v st' h
  obtain ⟨r, w, e, h⟩ := call_inv h
  obtain ⟨h1, h2⟩ := hk _ _ _ h
  obtain ⟨n, hn, hw⟩ := hc _ _ _ h
  obtain ⟨c1, hs⟩ := op_same F o _ _ _ e
  refine ⟨(call_ok (hs.resolve_right ?_)).trans h1, Nat.le_trans c1 h2⟩
  rintro ⟨_, x, h3, h4, h5⟩
  exact h5 (lasting_clean hF hn hw x h4)

theorem edit_handlers {F : Faults} (hF : Lasting F) (cfg : Config) :
    SameHandlers callsE BoxMap.std d (fun _ => True) (Edit.handler F d cfg) (Edit.handler noFaults d cfg) := by
  intro p path bi ch1 ch2 _ hch
  unfold Edit.handler
  split
  · exact same_ret
  · split
    · refine same_call (fun s s' r => op_careful F (.copy d bi) trivial s s' r) ?_
      rw [runProg, runProg]
      exact .bind (.same _ fun _ => rfl) fun _ => .bind (.same _ fun _ => rfl) fun _ => same_ret (ch1 := ch1)
    · refine same_call (fun s s' r => op_careful F (.start bi) trivial s s' r) (same_readPayload (fun e => .fail _ _) fun x pos p co _ => ?_)
      obtain ⟨box, n⟩ := x
      unfold Edit.withPayload
      simp only
      split
      · intro st v st' h
        cases h
      · exact same_confirmed hF (confirms_expand hch fun _ => confirms_direct (o := .close) trivial)
          (same_expand hch fun _ => same_call (fun s s' r => op_careful F .close trivial s s' r) same_ret)

theorem rewrite_handlers {F : Faults} (hF : Lasting F) (t : BoxType) (go : String) (f : SV → SV) :
    SameHandlers callsE BoxMap.std d (fun _ => True) (Rewrite.handler F d t go f) (Rewrite.handler noFaults d t go f) := by
  intro p path bi ch1 ch2 _ hch
  unfold Rewrite.handler
  split
  · refine same_call (fun s s' r => op_careful F (.start bi) trivial s s' r) (same_readPayload (fun e => .fail _ _) fun x pos p co _ => ?_)
    obtain ⟨box, n⟩ := x
    unfold Rewrite.withPayload
    simp only
    split
    · intro st v st' h
      cases h
    · exact same_confirmed hF (confirms_direct (o := .close) trivial) (same_call (fun s s' r => op_careful F .close trivial s s' r) same_ret)
  · refine same_call (fun s s' r => op_careful F (.copy d bi) trivial s s' r) ?_
    rw [runProg, runProg]
    exact .bind (.same _ fun _ => rfl) fun _ => .bind (.same _ fun _ => rfl) fun _ => same_ret (ch1 := ch1)

theorem stop_not_ok (o : Option Stop) (e : Err) : (o.map Stop.out).getD (.err e) ≠ .ok () := by
  cases o with
  | none => exact fun h => by cases h
  | some x => cases x <;> exact fun h => by cases h

theorem rewrite_same {F : Faults} {t : BoxType} {go : String} {f : SV → SV} {fuel : Nat} {out : Bytes} {Ok : BoxInfo → Prop} (hc : Known d Ok)
    (hs : SameHandlers callsE BoxMap.std d Ok (Rewrite.handler F d t go f) (Rewrite.handler noFaults d t go f))
    (h : rewriteFile F d t go f fuel = (.ok (), out)) : rewriteFile noFaults d t go f fuel = (.ok (), out) := by
  unfold rewriteFile at h
  cases e : readBoxStructure BoxMap.std d (Rewrite.handler F d t go f) fuel () ⟨0, ⟨WrSt.new ⟨[], 0, 0⟩, none⟩, []⟩ with
  | mk r s =>
    rw [e] at h
    cases r with
    | ok v =>
      have := (same_readBoxStructure hc hs fuel () _ _ _ e).1
      unfold rewriteFile
      rw [this]
      exact h
    | err e => exact absurd (congrArg Prod.fst h) (stop_not_ok _ _)
    | panic => cases h
    | hang => cases h

/-- **C73**, `mp4tool edit` — For every input and configuration and every output file that keeps failing once a `Write` has failed: if the command succeeds, the output is
the one it writes when nothing fails (see C45). -/
theorem edit_success_lasting (F : Faults) (hF : Lasting F) (cfg : Config) (fuel : Nat) (out : Bytes) (h : editFile F d cfg fuel = (.ok (), out)) :
    editFile noFaults d cfg fuel = (.ok (), out) := by
  unfold editFile at h
  cases e : readBoxStructure BoxMap.std d (Edit.handler F d cfg) fuel () ⟨0, ⟨WrSt.new ⟨[], 0, 0⟩, none⟩, []⟩ with
  | mk r s =>
    rw [e] at h
    cases r with
    | ok v =>
      have := (same_readBoxStructure known_true (edit_handlers hF cfg) fuel () _ _ _ e).1
      unfold editFile
      rw [this]
      exact h
    | err e => exact absurd (congrArg Prod.fst h) (stop_not_ok _ _)
    | panic => cases h
    | hang => cases h

/-- **C73**, the program of the README — The same for the program that rewrites the boxes of one type, whatever the type and the change (see C72). -/
theorem rewrite_success_lasting (F : Faults) (hF : Lasting F) (t : BoxType) (go : String) (f : SV → SV) (fuel : Nat) (out : Bytes)
    (h : rewriteFile F d t go f fuel = (.ok (), out)) : rewriteFile noFaults d t go f fuel = (.ok (), out) :=
  rewrite_same known_true (rewrite_handlers hF t go f) h

/-- the payload of the box lies in the file, as far as it exists -/
theorem known_inFile (hd : d.length ≤ maxAlloc) : Known d fun bi => bi.offset + bi.headerSize ≤ d.length := by
  refine ⟨fun pos p bi h => ?_, fun bi ctx h => h⟩
  rcases readBoxInfo_post hd pos with ⟨bi', h', ho, _, hl, _⟩ | ⟨e, p', h', _⟩
  · rw [h'] at h
    cases h
    rw [ho]
    exact hl
  · rw [h'] at h
    cases h

theorem payload_typed (hd : d.length ≤ maxAlloc) {bi : BoxInfo} (hb : bi.offset + bi.headerSize ≤ d.length) {x : BoxVal × Nat} {pos p : Nat}
    (h : readPayloadP BoxMap.std d bi pos = (.ok x, p)) : x.1.bd ∈ Cat.allDefs ∧ typedFields x.1.bd.fields x.1.sv = true := by
  obtain ⟨y, p1, h1, h⟩ := bind_ok_inv h
  have hp : p1 ≤ d.length := by
    unfold BoxInfo.seekToPayload at h1
    rw [seekStartP_ok (by unfold add64; simp only [U64, maxAlloc] at *; omega)] at h1
    cases h1
    unfold add64
    rw [Nat.mod_eq_of_lt (by simp only [U64, maxAlloc] at *; omega)]
    exact hb
  unfold BoxMap.unmarshalAny BoxMap.new at h
  cases hl : BoxMap.std.getBoxDef bi.type bi.ctx with
  | none => rw [hl] at h; cases h
  | some bd =>
    rw [hl] at h
    simp only at h
    split at h
    · next hr =>
      cases h
      have hp := unmarshalBox_post (std_mem hl) hd hp bi.ctx (sub64 bi.size bi.headerSize) (zero_typedFields bd.fields)
      rw [hr] at hp
      exact ⟨std_mem hl, hp.2.2.2.1⟩
    all_goals cases h

/-- **C73**, the program of the README — If `Marshal` of the Go type does not lose errors and the change gives a value of that type: if the program succeeds, whatever the
destination does, the output is the one that it writes when nothing fails. -/
theorem rewrite_success_partial (hd : d.length ≤ 2 ^ 48) (F : Faults) (t : BoxType) (go : String) (hg : go ∉ mayLoseErrors) (f : SV → SV)
    (hf : ∀ bd ∈ Cat.allDefs, bd.goName = go → ∀ sv, typedFields bd.fields sv = true → typedFields bd.fields (f sv) = true) (fuel : Nat) (out : Bytes)
    (h : rewriteFile F d t go f fuel = (.ok (), out)) : rewriteFile noFaults d t go f fuel = (.ok (), out) := by
  refine rewrite_same (known_inFile hd) ?_ h
  intro p path bi ch1 ch2 hb hch
  unfold Rewrite.handler
  split
  · refine same_call (fun s s' r => op_careful F (.start bi) trivial s s' r) (same_readPayload (fun e => .fail _ _) fun x pos p co hx => ?_)
    obtain ⟨h1, h2⟩ := payload_typed hd hb hx
    obtain ⟨box, n⟩ := x
    unfold Rewrite.withPayload BoxVal.assert
    simp only at h1 h2 ⊢
    by_cases hn : box.bd.goName = go
    · rw [if_pos hn]
      simp only
      refine same_call (fun s s' r => op_careful F (.marshal box.bd bi.ctx (f box.sv)) ⟨h1, ?_, hf _ h1 hn _ h2⟩ s s' r)
        (same_call (fun s s' r => op_careful F .close trivial s s' r) same_ret)
      rw [hn]
      exact hg
    · rw [if_neg hn]
      intro st v st' h
      cases h
  · refine same_call (fun s s' r => op_careful F (.copy d bi) trivial s s' r) ?_
    rw [runProg, runProg]
    exact .bind (.same _ fun _ => rfl) fun _ => .bind (.same _ fun _ => rfl) fun _ => same_ret (ch1 := ch1)

theorem bd_emsg : ∀ bd ∈ Cat.allDefs, bd.goName = "Emsg" → bd = Cat.bdEmsg := by
  unfold Cat.allDefs
  simp only [List.forall_mem_cons]
  repeat' apply And.intro
  all_goals first
    | (intro _; rfl)
    | (intro _; trivial)
    | (intro h; exact absurd h (by decide))
    | (intro _ h; cases h)

/-- **C73**, the program as printed — Whatever the output file does: if the program of the README succeeds, it has written what it should. -/
theorem readme_success (hd : d.length ≤ 2 ^ 48) (F : Faults) (msg : Bytes) (fuel : Nat) (out : Bytes)
    (h : rewriteFile F d tEmsg "Emsg" (setMessage msg) fuel = (.ok (), out)) : rewriteFile noFaults d tEmsg "Emsg" (setMessage msg) fuel = (.ok (), out) := by
  refine rewrite_success_partial hd F tEmsg "Emsg" (by decide) (setMessage msg) (fun bd hbd hn sv hty => ?_) fuel out h
  obtain rfl := bd_emsg bd hbd hn
  unfold setMessage
  refine typed_set (f := { name := "MessageData", size := 8, isString := true }) (t := .slice (.uint 8)) (Fields.nodup_names _ (allDefs_nodup _ hbd)) hty ?_ ?_
  · simp [Cat.bdEmsg, Cat.fsEmsg, Fields.ofList, Fields.toList]
  · simp only [typedV, List.all_eq_true, List.mem_map]
    rintro x ⟨b, _, rfl⟩
    simpa [typedV] using b.isLt

/-! ## Cases -/

/-- The disk is full after some bytes: with 20 calls the program of the README fails … -/
example : (readme ⟨fun n => if n < 20 then none else some 0, fun _ => false⟩ eventFile 4).1 = .err .sink := by decide +kernel
/-- … and the schedule is one that lasts. -/
example : Lasting ⟨fun n => if n < 20 then none else some 0, fun _ => false⟩ := by
  intro m n hmn h
  simp only at h ⊢
  split at h
  · exact absurd rfl h
  · rw [if_neg (by omega)]
    exact fun h => by cases h
/-- With failures of calls that are not made, it succeeds, and the theorem says what it has written. -/
example : readme ⟨fun n => if n < 1000 then none else some 0, fun _ => false⟩ eventFile 4 = readme noFaults eventFile 4 := by decide +kernel

/-- A file with one `stco` box -/
def stcoFile : Bytes := [0, 0, 0, 20, 0x73, 0x74, 0x63, 0x6f, 0, 0, 0, 0, 0, 0, 0, 1, 1, 2, 3, 4]

/-- **C73** fails for `mp4tool edit`, without any option, when one `Write` fails, as on a disk with room for 17 bytes (after the
failure only the size is overwritten): the command reports success; in the output a chunk offset of four bytes has one. -/
theorem edit_success_lost : editFile once stcoFile (Config.ofOptions none []) 3 =
    (.ok (), [0, 0, 0, 17, 0x73, 0x74, 0x63, 0x6f, 0, 0, 0, 0, 0, 0, 0, 1, 1]) := by decide +kernel

end Mp4.Props
