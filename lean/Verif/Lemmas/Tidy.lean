import Verif.Lemmas.RegLocal
import Verif.Lemmas.Traverse

/-!
# Handlers that leave their variables as they should be

A handler is to find its variables at some level (`At l`) and leave them there, if it succeeds; if it fails they are at some level.
-/

namespace Mp4

variable {S P V L α β : Type} {At : L → S → Prop} {m : BoxMap} {d : Bytes}

/-- What `ReadPayload` may return. -/
def Payload (m : BoxMap) (d : Bytes) (bi : BoxInfo) (box : BoxVal) (n : Nat) : Prop :=
  ∃ p, m.unmarshalAny d bi.type (sub64 bi.size bi.headerSize) bi.ctx (bi.offset + bi.headerSize) = (.ok (box, n), p)

/-- The program, started at the second level, ends at the first. -/
def Prog.Tidy (At : L → S → Prop) (m : BoxMap) (d : Bytes) (bi : BoxInfo) (fin : L) : L → Prog S P V → Prop
  | cur, .ret _ => cur = fin
  | _, .err _ => True
  | cur, .get k => ∀ s, At cur s → (k s).Tidy At m d bi fin cur
  | _, .set s k => ∃ l, At l s ∧ k.Tidy At m d bi fin l
  | cur, .stream _ k => ∀ p, (k p).Tidy At m d bi fin cur
  | cur, .readPayload k => (∀ e, (k (.error e)).Tidy At m d bi fin cur) ∧ ∀ box n, Payload m d bi box n → (k (.ok (box, n))).Tidy At m d bi fin cur
  | cur, .readData _ k => ∀ r b, (k r b).Tidy At m d bi fin cur
  | cur, .expand _ k => (∀ vs, (k (.ok vs)).Tidy At m d bi fin cur) ∧ ∀ e l, (k (.error e)).Tidy At m d bi fin l

/-- from one level to another -/
def Moves (At : L → S → Prop) (l l' : L) (x : TM S V α) : Prop :=
  ∀ s, At l s.user → (∃ l2, At l2 (x s).2.user) ∧ ∀ a s', x s = (.ok a, s') → At l' s'.user

/-- stays at the level -/
def Bal (At : L → S → Prop) (x : TM S V α) : Prop := ∀ l, Moves At l l x

theorem Moves.bind {x : TM S V α} {k : α → TM S V β} {l1 l2 l3 : L} (hx : Moves At l1 l2 x) (hk : ∀ a, Moves At l2 l3 (k a)) : Moves At l1 l3 (x >>= k) := by
  intro s hs
  obtain ⟨h1, h2⟩ := hx s hs
  rw [M.bind_run]
  cases e : x s with
  | mk o s' =>
    rw [e] at h1
    cases o with
    | ok a => exact hk a s' (h2 a s' e)
    | err e => exact ⟨h1, fun _ _ h => by simp at h⟩
    | panic => exact ⟨h1, fun _ _ h => by simp at h⟩
    | hang => exact ⟨h1, fun _ _ h => by simp at h⟩

/-- `x` does not touch the variables -/
def Untouched (x : TM S V α) : Prop := ∀ s, (x s).2.user = s.user

theorem Untouched.moves {x : TM S V α} (h : Untouched x) (l : L) : Moves At l l x := by
  intro s hs
  refine ⟨⟨l, (h s).symm ▸ hs⟩, fun a s' e => ?_⟩
  have := h s
  rw [e] at this
  simp only at this
  rw [this]
  exact hs

theorem Untouched.pure (a : α) : Untouched (Pure.pure a : TM S V α) := fun _ => rfl
theorem Untouched.fail (e : Err) : Untouched (M.fail e : TM S V α) := fun _ => rfl
theorem Untouched.liftP (x : PM α) : Untouched (Mp4.liftP x : TM S V α) := fun _ => rfl
theorem Untouched.emit (e : Ev V) : Untouched (Mp4.emit e : TM S V Unit) := fun _ => rfl
theorem Untouched.ofExcept (r : Except Err α) : Untouched (Mp4.ofExcept r : TM S V α) := by cases r <;> exact fun _ => rfl
theorem Untouched.tryM {x : TM S V α} (hx : Untouched x) : Untouched (Mp4.tryM x) := by
  intro s
  have := hx s
  unfold Mp4.tryM
  cases e : x s with
  | mk o s' => rw [e] at this; cases o <;> exact this

theorem Moves.fail (e : Err) (l l' : L) : Moves At l l' (M.fail e : TM S V α) := fun s hs => ⟨⟨l, hs⟩, fun _ _ h => by simp [M.fail] at h⟩

/-- Results of an attempt. -/
theorem tryM_bind {x : TM S V α} {k : Except Err α → TM S V β} {l1 l2 l3 : L} (hx : Moves At l1 l2 x) (hok : ∀ a, Moves At l2 l3 (k (.ok a)))
    (herr : ∀ e l, Moves At l l3 (k (.error e))) : Moves At l1 l3 (tryM x >>= k) := by
  intro s hs
  obtain ⟨⟨l, h1⟩, h2⟩ := hx s hs
  rw [M.bind_run]
  unfold tryM
  cases e : x s with
  | mk o s' =>
    rw [e] at h1
    cases o with
    | ok a => exact hok a s' (h2 a s' e)
    | err er => exact herr er l s' h1
    | panic => exact ⟨⟨l, h1⟩, fun _ _ h => by simp at h⟩
    | hang => exact ⟨⟨l, h1⟩, fun _ _ h => by simp at h⟩

theorem readPayloadP_payload (hd : d.length ≤ maxAlloc) {bi : BoxInfo} (h : bi.offset + bi.headerSize ≤ d.length) {pos p : Nat} {box : BoxVal} {n : Nat}
    (e : readPayloadP m d bi pos = (.ok (box, n), p)) : Payload m d bi box n := by
  unfold readPayloadP at e
  rw [M.bind_ok (seekToPayload_ok hd h pos)] at e
  exact ⟨p, e⟩

theorem tidy_runProg (hd : d.length ≤ maxAlloc) {path : List BoxType} {bi : BoxInfo} (hb : bi.offset + bi.headerSize ≤ d.length)
    {ch : Nat → P → TM S V (List V)} (hch : ∀ co p, Bal At (ch co p)) {fin : L} :
    ∀ (g : Prog S P V) (co : Nat) (cur : L), g.Tidy At m d bi fin cur → Moves At cur fin (runProg m d path bi ch g co)
  | .ret v, co, cur, h => by
    rw [runProg, show cur = fin from h]
    exact (Untouched.pure v).moves _
  | .err e, co, cur, h => by
    rw [runProg]
    exact Moves.fail _ _ _
  | .get k, co, cur, h => by
    rw [runProg]
    intro s hs
    rw [M.bind_ok (M.get_run s)]
    exact tidy_runProg hd hb hch (k s.user) co cur (h s.user hs) s hs
  | .set u k, co, cur, h => by
    rw [runProg]
    intro s hs
    rw [M.bind_ok (M.modify_run _ s)]
    obtain ⟨l, h1, h2⟩ := h
    exact tidy_runProg hd hb hch k co l h2 _ h1
  | .stream mv k, co, cur, h => by
    rw [runProg]
    intro s hs
    rw [M.bind_ok (M.get_run s), M.bind_ok (M.modify_run _ s)]
    exact tidy_runProg hd hb hch (k s.pos) co cur (h s.pos) _ hs
  | .readData w k, co, cur, h => by
    rw [runProg]
    exact ((Untouched.liftP _).moves _).bind fun x => tidy_runProg hd hb hch (k x.1 x.2) co cur (h x.1 x.2)
  | .readPayload k, co, cur, h => by
    rw [runProg]
    intro s hs
    rw [M.bind_run]
    unfold tryM liftP
    cases e : readPayloadP m d bi s.pos with
    | mk o q =>
      cases o with
      | ok x =>
        obtain ⟨box, n⟩ := x
        exact tidy_runProg hd hb hch (k (.ok (box, n))) _ cur (h.2 box n (readPayloadP_payload hd hb e)) _ hs
      | err er => exact tidy_runProg hd hb hch (k (.error er)) co cur (h.1 er) _ hs
      | panic => exact ⟨⟨cur, hs⟩, fun _ _ h => by simp at h⟩
      | hang => exact ⟨⟨cur, hs⟩, fun _ _ h => by simp at h⟩
  | .expand p k, co, cur, h => by
    rw [runProg]
    refine ((Untouched.tryM (Untouched.liftP _)).moves _).bind fun x => ?_
    match x with
    | .error e => exact tidy_runProg hd hb hch (k (.error e)) co cur (h.2 e cur)
    | .ok co' =>
      refine ((Untouched.emit _).moves _).bind fun _ => tryM_bind (hch co' p cur) (fun vs => ?_) (fun e l => ?_)
      · exact ((Untouched.emit _).moves _).bind fun _ => tidy_runProg hd hb hch (k (.ok vs)) co' cur (h.1 vs)
      · exact ((Untouched.emit _).moves _).bind fun _ => tidy_runProg hd hb hch (k (.error e)) co' l (h.2 e l)

/-- the box read, up to its context -/
theorem checkFtyp_same_box {path : List BoxType} {bi bi' : BoxInfo} {p p' : Nat} (h : checkFtyp m d path bi p = (.ok bi', p')) :
    ∃ ctx, bi' = { bi with ctx := ctx } := by
  unfold checkFtyp at h
  split at h
  · obtain ⟨⟨box, n⟩, q, _, h⟩ := bind_ok_inv h
    obtain ⟨_, r, _, h⟩ := bind_ok_inv h
    simp only [M.pure_run, Prod.mk.injEq, Out.ok.injEq] at h
    rw [← h.1]
    split
    · exact ⟨_, rfl⟩
    · exact ⟨bi.ctx, rfl⟩
  · simp only [M.pure_run, Prod.mk.injEq, Out.ok.injEq] at h
    exact ⟨bi.ctx, h.1.symm⟩

theorem checkKeys_same_box {bi bi' : BoxInfo} {p p' : Nat} (h : checkKeys m d bi p = (.ok bi', p')) : ∃ ctx, bi' = { bi with ctx := ctx } := by
  unfold checkKeys at h
  split at h
  · obtain ⟨⟨box, n⟩, q, _, h⟩ := bind_ok_inv h
    obtain ⟨_, r, _, h⟩ := bind_ok_inv h
    simp only [M.pure_run, Prod.mk.injEq, Out.ok.injEq] at h
    exact ⟨_, h.1.symm⟩
  · simp only [M.pure_run, Prod.mk.injEq, Out.ok.injEq] at h
    exact ⟨bi.ctx, h.1.symm⟩

/-- The handler is tidy for every box that can occur. -/
def TidyHandler (At : L → S → Prop) (m : BoxMap) (d : Bytes) (h : Handler S P V) : Prop :=
  ∀ p bi pre l, bi.offset + bi.headerSize ≤ d.length → (h ⟨p, bi, pre ++ [bi.type]⟩).Tidy At m d bi l l

theorem liftP_bind {x : PM α} {k : α → TM S V β} {l l' : L} (hk : ∀ a p p', x p = (.ok a, p') → Moves At l l' (k a)) : Moves At l l' (liftP x >>= k) := by
  intro s hs
  rw [M.bind_run]
  unfold liftP
  cases e : x s.pos with
  | mk o q =>
    cases o with
    | ok a => exact hk a _ _ e ⟨q, s.user, s.log⟩ hs
    | err er => exact ⟨⟨l, hs⟩, fun _ _ h => by simp at h⟩
    | panic => exact ⟨⟨l, hs⟩, fun _ _ h => by simp at h⟩
    | hang => exact ⟨⟨l, hs⟩, fun _ _ h => by simp at h⟩

theorem tidy_fromInternal (hd : d.length ≤ maxAlloc) {h : Handler S P V} (hh : TidyHandler At m d h)
    {rec : BoxInfo → Nat → List BoxType → Ctx → P → TM S V (List V)} (hr : ∀ bi total path ctx p, Bal At (rec bi total path ctx p))
    (parent : Option BoxInfo) (bi : BoxInfo) (hb : bi.offset + bi.headerSize ≤ d.length) (path : List BoxType) (p : P) :
    Bal At (fromInternal m d h rec parent bi path p) := by
  intro l
  unfold fromInternal
  refine liftP_bind fun _ _ _ _ => liftP_bind fun b1 _ _ e1 => liftP_bind fun b2 _ _ e2 => ?_
  have hb2 : b2.offset + b2.headerSize ≤ d.length := by
    obtain ⟨c1, r1⟩ := checkFtyp_same_box e1
    obtain ⟨c2, r2⟩ := checkKeys_same_box e2
    rw [r2, r1]
    exact hb
  refine ((Untouched.emit _).moves _).bind fun _ => tryM_bind (l2 := l)
    (tidy_runProg hd hb2 (fun _ _ => hr _ _ _ _ _) _ _ l (hh p b2 path l hb2)) (fun v => ?_) (fun e l' => ?_)
  · exact ((Untouched.emit _).moves _).bind fun _ => ((Untouched.ofExcept _).moves _).bind fun _ => liftP_bind fun _ _ _ _ => (Untouched.pure _).moves _
  · exact ((Untouched.emit _).moves _).bind fun _ => Moves.bind (l2 := l) (Moves.fail e l' l) fun _ => liftP_bind fun _ _ _ _ => (Untouched.pure _).moves _

theorem tidy_readStructure (hd : d.length ≤ maxAlloc) {h : Handler S P V} (hh : TidyHandler At m d h) :
    ∀ (f : Nat) (parent : Option BoxInfo) (total : Nat) (isRoot : Bool) (path : List BoxType) (ctx : Ctx) (p : P),
    Bal At (readStructure m d h f parent total isRoot path ctx p)
  | 0, _, _, _, _, _, _ => by
    rw [readStructure]
    exact fun l s hs => ⟨⟨l, hs⟩, fun _ _ h => by simp [M.hang] at h⟩
  | f + 1, parent, total, isRoot, path, ctx, p => by
    intro l
    rw [readStructure]
    split
    · intro s hs
      rcases readBoxInfo_header hd s.pos ctx with ⟨bi, e, -, hb⟩ | ⟨er, q, e⟩
      · have e1 : (tryM (liftP (readBoxInfo d)) : TM S V _) s = (.ok (.ok bi), ⟨s.pos + bi.headerSize, s.user, s.log⟩) := by
          unfold tryM liftP
          rw [e]
        rw [M.bind_ok e1]
        suffices Moves At l l (if ¬ isRoot = true ∧ total < bi.size then M.fail .tooLargeBoxSize else (do
            let x ← fromInternal m d h (fun par total path ctx p => readStructure m d h f (some par) total false path ctx p) parent
              { bi with ctx := ctx } path p
            let vs ← readStructure m d h f parent (sub64 total x.2.size) isRoot path (nextCtx ctx x.2) p
            pure (x.1 :: vs)) : TM S V (List V)) from this _ hs
        split
        · exact Moves.fail _ _ _
        · exact (tidy_fromInternal hd hh (fun _ _ _ _ _ => tidy_readStructure hd hh f _ _ _ _ _ _) parent _ hb.inside path p l).bind fun x =>
            (tidy_readStructure hd hh f _ _ _ _ _ _ l).bind fun _ => (Untouched.pure _).moves _
      · have e1 : (tryM (liftP (readBoxInfo d)) : TM S V _) s = (.ok (.error er), ⟨q, s.user, s.log⟩) := by
          unfold tryM liftP
          rw [e]
        rw [M.bind_ok e1]
        suffices Moves At l l (if isRoot = true ∧ er = .eof then pure [] else M.fail er : TM S V (List V)) from this _ hs
        split
        · exact (Untouched.pure _).moves _
        · exact Moves.fail _ _ _
    · split
      · exact Moves.fail _ _ _
      · exact (Untouched.pure _).moves _

theorem tidy_readBoxStructure (hd : d.length ≤ maxAlloc) {h : Handler S P V} (hh : TidyHandler At m d h) (f : Nat) (p : P) :
    Bal At (readBoxStructure m d h f p) := by
  intro l
  unfold readBoxStructure
  exact ((Untouched.liftP _).moves _).bind fun _ => tidy_readStructure hd hh _ _ _ _ _ _ _ l

end Mp4
