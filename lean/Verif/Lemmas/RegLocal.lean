import Verif.Lemmas.SimulateUpTo
import Verif.Lemmas.MarshalErr
import Verif.Model.Probe

/-!
# Two registries that differ only for some types
-/

namespace Mp4

variable {S P V α : Type} {X : BoxType → Prop} {m m' : BoxMap} {d : Bytes}

/-- The registries agree on all types but those of `X`. -/
def SameOutside (X : BoxType → Prop) (m m' : BoxMap) : Prop := ∀ t, ¬ X t → m t = m' t

theorem getBoxDef_same {t : BoxType} (h : m t = m' t) (ctx : Ctx) : m.getBoxDef t ctx = m'.getBoxDef t ctx := by
  unfold BoxMap.getBoxDef; rw [h]

theorem unmarshalAny_same {t : BoxType} (h : m t = m' t) (ps : Nat) (ctx : Ctx) : m.unmarshalAny d t ps ctx = m'.unmarshalAny d t ps ctx := by
  unfold BoxMap.unmarshalAny BoxMap.new; rw [getBoxDef_same h]

theorem readPayloadP_same {bi : BoxInfo} (h : m bi.type = m' bi.type) : readPayloadP m d bi = readPayloadP m' d bi := by
  unfold readPayloadP; rw [unmarshalAny_same h]

theorem checkFtyp_same (h : m tFtyp = m' tFtyp) (path : List BoxType) (bi : BoxInfo) : checkFtyp m d path bi = checkFtyp m' d path bi := by
  unfold checkFtyp; rw [unmarshalAny_same h]

theorem checkKeys_same (h : m tKeys = m' tKeys) (bi : BoxInfo) : checkKeys m d bi = checkKeys m' d bi := by
  unfold checkKeys; rw [unmarshalAny_same h]

theorem expandStart_same {bi : BoxInfo} (h : m bi.type = m' bi.type) (co : Nat) : expandStart m d bi co = expandStart m' d bi co := by
  unfold expandStart; rw [readPayloadP_same h]

/-- `checkFtyp` and `checkKeys` do not change the type. -/
theorem checkFtyp_type {path : List BoxType} {bi bi' : BoxInfo} {p p' : Nat} (h : checkFtyp m d path bi p = (.ok bi', p')) : bi'.type = bi.type := by
  unfold checkFtyp at h
  split at h
  · obtain ⟨⟨box, n⟩, q, _, h⟩ := bind_ok_inv h
    obtain ⟨_, r, _, h⟩ := bind_ok_inv h
    simp only [M.pure_run, Prod.mk.injEq, Out.ok.injEq] at h
    rw [← h.1]
    split <;> rfl
  · simp only [M.pure_run, Prod.mk.injEq, Out.ok.injEq] at h
    rw [h.1]

theorem checkKeys_type {bi bi' : BoxInfo} {p p' : Nat} (h : checkKeys m d bi p = (.ok bi', p')) : bi'.type = bi.type := by
  unfold checkKeys at h
  split at h
  · obtain ⟨⟨box, n⟩, q, _, h⟩ := bind_ok_inv h
    obtain ⟨_, r, _, h⟩ := bind_ok_inv h
    simp only [M.pure_run, Prod.mk.injEq, Out.ok.injEq] at h
    rw [← h.1]
  · simp only [M.pure_run, Prod.mk.injEq, Out.ok.injEq] at h
    rw [h.1]

/-! ## Handlers that leave the boxes of these types alone -/

/-- The program neither decodes nor expands its box. -/
def Prog.Plain : Prog S P V → Prop
  | .ret _ => True
  | .err _ => True
  | .get k => ∀ s, (k s).Plain
  | .set _ k => k.Plain
  | .stream _ k => ∀ p, (k p).Plain
  | .readPayload _ => False
  | .readData _ k => ∀ r b, (k r b).Plain
  | .expand _ _ => False

/-- If it does, its registration does not matter. -/
theorem runProg_same {path : List BoxType} {bi : BoxInfo} {ch ch' : Nat → P → TM S V (List V)} :
    ∀ (g : Prog S P V) (co : Nat), (g.Plain ∨ (m bi.type = m' bi.type ∧ ch = ch')) → runProg m d path bi ch g co = runProg m' d path bi ch' g co
  | .ret v, co, _ => by rw [runProg, runProg]
  | .err e, co, _ => by rw [runProg, runProg]
  | .get k, co, h => by
    rw [runProg, runProg]
    congr 1; funext s
    exact runProg_same (k s.user) co (h.imp (fun h => h s.user) id)
  | .set s k, co, h => by
    rw [runProg, runProg]
    congr 1; funext _
    exact runProg_same k co (h.imp (fun h => h) id)
  | .stream mv k, co, h => by
    rw [runProg, runProg]
    congr 1; funext s
    congr 1; funext _
    exact runProg_same (k s.pos) co (h.imp (fun h => h s.pos) id)
  | .readData w k, co, h => by
    rw [runProg, runProg]
    congr 1; funext x
    exact runProg_same (k x.1 x.2) co (h.imp (fun h => h x.1 x.2) id)
  | .readPayload k, co, h => by
    obtain ⟨h, hc⟩ := h.resolve_left id
    rw [runProg, runProg, readPayloadP_same h]
    congr 1; funext x
    match x with
    | .ok (box, n) => exact runProg_same (k _) _ (.inr ⟨h, hc⟩)
    | .error e => exact runProg_same (k _) _ (.inr ⟨h, hc⟩)
  | .expand p k, co, h => by
    obtain ⟨h, hc⟩ := h.resolve_left id
    rw [runProg, runProg, expandStart_same h]
    congr 1; funext x
    match x with
    | .error e => exact runProg_same (k _) _ (.inr ⟨h, hc⟩)
    | .ok co' =>
      show (emit (.openBox path bi co') >>= fun _ => _) = (emit (.openBox path bi co') >>= fun _ => _)
      congr 1; funext _
      rw [hc]
      congr 1; funext r
      congr 1; funext _
      exact runProg_same (k _) _ (.inr ⟨h, rfl⟩)

/-- The handler leaves boxes with at least `n` ancestors alone if their types are in `X`. -/
def LeavesAlone (X : BoxType → Prop) (n : Nat) (h : Handler S P V) : Prop :=
  ∀ (hd : Handle P) (pre : List BoxType), n ≤ pre.length → hd.path = pre ++ [hd.info.type] → X hd.info.type → (h hd).Plain

theorem bind_congr' {σ α β : Type} {x : M σ α} {k k' : α → M σ β} {s : σ} (h : ∀ a s', x s = (.ok a, s') → k a s' = k' a s') :
    (x >>= k) s = (x >>= k') s := by
  rw [M.bind_run, M.bind_run]
  cases e : x s with
  | mk o s' =>
    cases o with
    | ok a => exact h a s' e
    | err e => rfl
    | panic => rfl
    | hang => rfl

theorem liftP_ok {x : PM α} {s s' : TSt S V} {a : α} (h : (liftP x : TM S V α) s = (.ok a, s')) : x s.pos = (.ok a, s'.pos) := by
  unfold liftP at h
  cases e : x s.pos with
  | mk o q => rw [e] at h; simp only [Prod.mk.injEq] at h; rw [h.1, ← h.2]

theorem fromInternal_same (hf : m tFtyp = m' tFtyp) (hk : m tKeys = m' tKeys) {h : Handler S P V}
    {rec rec' : BoxInfo → Nat → List BoxType → Ctx → P → TM S V (List V)} {parent : Option BoxInfo} {bi : BoxInfo} {path : List BoxType} {p : P}
    (hh : ∀ bi' : BoxInfo, bi'.type = bi.type → (h ⟨p, bi', path ++ [bi'.type]⟩).Plain ∨
      (m bi'.type = m' bi'.type ∧ ∀ total ctx p, rec bi' total (path ++ [bi'.type]) ctx p = rec' bi' total (path ++ [bi'.type]) ctx p)) :
    fromInternal m d h rec parent bi path p = fromInternal m' d h rec' parent bi path p := by
  funext s
  unfold fromInternal
  refine bind_congr' fun _ s1 _ => ?_
  rw [checkFtyp_same hf]
  refine bind_congr' fun b1 s2 e2 => ?_
  rw [checkKeys_same hk]
  refine bind_congr' fun b2 s3 e3 => ?_
  have ht : b2.type = bi.type := (checkKeys_type (liftP_ok e3)).trans (checkFtyp_type (liftP_ok e2))
  have hr : runProg m d (path ++ [b2.type]) b2 (fun co p => rec b2 (sub64 (add64 b2.offset b2.size) co) (path ++ [b2.type]) (childCtx b2) p)
      (h ⟨p, b2, path ++ [b2.type]⟩) 0 =
      runProg m' d (path ++ [b2.type]) b2 (fun co p => rec' b2 (sub64 (add64 b2.offset b2.size) co) (path ++ [b2.type]) (childCtx b2) p)
      (h ⟨p, b2, path ++ [b2.type]⟩) 0 := by
    refine runProg_same _ _ ((hh b2 ht).imp id fun h => ⟨h.1, ?_⟩)
    funext co p
    exact h.2 _ _ _
  simp only [hr]

theorem readStructure_same (hX : SameOutside X m m') (hf : m tFtyp = m' tFtyp) (hk : m tKeys = m' tKeys) {n : Nat} {h : Handler S P V}
    (hh : LeavesAlone X n h) : ∀ (f : Nat) (parent : Option BoxInfo) (total : Nat) (isRoot : Bool) (path : List BoxType) (ctx : Ctx) (p : P),
    n ≤ path.length → readStructure m d h f parent total isRoot path ctx p = readStructure m' d h f parent total isRoot path ctx p
  | 0, _, _, _, _, _, _, _ => by rw [readStructure, readStructure]
  | f + 1, parent, total, isRoot, path, ctx, p, hn => by
    rw [readStructure, readStructure]
    split
    · congr 1; funext x
      match x with
      | .error e => rfl
      | .ok bi =>
        show (if ¬ isRoot ∧ total < bi.size then M.fail .tooLargeBoxSize else _) = (if ¬ isRoot ∧ total < bi.size then M.fail .tooLargeBoxSize else _)
        split
        · rfl
        · have e : fromInternal m d h (fun par total path ctx p => readStructure m d h f (some par) total false path ctx p) parent
              { bi with ctx := ctx } path p =
              fromInternal m' d h (fun par total path ctx p => readStructure m' d h f (some par) total false path ctx p) parent
              { bi with ctx := ctx } path p := by
            refine fromInternal_same hf hk fun bi' _ => ?_
            by_cases hx : X bi'.type
            · exact .inl (hh _ path hn rfl hx)
            · refine .inr ⟨hX _ hx, fun total ctx p => ?_⟩
              exact readStructure_same hX hf hk hh f _ _ _ _ _ _ (by simp; omega)
          rw [e]
          congr 1; funext y
          obtain ⟨v, b⟩ := y
          show (readStructure m d h f parent (sub64 total b.size) isRoot path (nextCtx ctx b) p >>= fun _ => _) =
            (readStructure m' d h f parent (sub64 total b.size) isRoot path (nextCtx ctx b) p >>= fun _ => _)
          rw [readStructure_same hX hf hk hh f parent _ isRoot path _ p hn]
    · rfl

theorem readBoxStructure_same (hX : SameOutside X m m') (hf : m tFtyp = m' tFtyp) (hk : m tKeys = m' tKeys) {h : Handler S P V}
    (hh : LeavesAlone X 0 h) (f : Nat) (p : P) : readBoxStructure m d h f p = readBoxStructure m' d h f p := by
  unfold readBoxStructure
  rw [readStructure_same hX hf hk hh _ _ _ _ _ _ _ (Nat.zero_le _)]

theorem readBoxStructureFrom_same (hX : SameOutside X m m') (hf : m tFtyp = m' tFtyp) (hk : m tKeys = m' tKeys) {h : Handler S P V}
    (hh : LeavesAlone X 1 h) (f : Nat) (bi : BoxInfo) (hb : ¬ X bi.type) (p : P) :
    readBoxStructureFrom m d h f bi p = readBoxStructureFrom m' d h f bi p := by
  unfold readBoxStructureFrom
  refine fromInternal_same hf hk fun bi' ht => .inr ⟨hX _ (ht ▸ hb), fun total ctx p => ?_⟩
  exact readStructure_same hX hf hk hh f _ _ _ _ _ _ (by simp)

/-! ## What handlers keep true of their variables -/

/-- The program keeps `I` true. -/
def Prog.Keeps (I : S → Prop) : Prog S P V → Prop
  | .ret _ => True
  | .err _ => True
  | .get k => ∀ s, I s → (k s).Keeps I
  | .set s k => I s ∧ k.Keeps I
  | .stream _ k => ∀ p, (k p).Keeps I
  | .readPayload k => ∀ r, (k r).Keeps I
  | .readData _ k => ∀ r b, (k r b).Keeps I
  | .expand _ k => ∀ r, (k r).Keeps I

/-- Running keeps `I` true. -/
def KeepsM (I : S → Prop) (x : TM S V α) : Prop := ∀ s, I s.user → I (x s).2.user

section
variable {I : S → Prop} {β : Type}

theorem KeepsM.bind {x : TM S V α} {k : α → TM S V β} (hx : KeepsM I x) (hk : ∀ a, KeepsM I (k a)) : KeepsM I (x >>= k) := by
  intro s hs
  have := hx s hs
  rw [M.bind_run]
  cases e : x s with
  | mk o s' =>
    rw [e] at this
    cases o with
    | ok a => exact hk a s' this
    | err e => exact this
    | panic => exact this
    | hang => exact this

theorem KeepsM.pure (a : α) : KeepsM I (Pure.pure a : TM S V α) := fun _ h => h
theorem KeepsM.fail (e : Err) : KeepsM I (M.fail e : TM S V α) := fun _ h => h
theorem KeepsM.liftP (x : PM α) : KeepsM I (Mp4.liftP x : TM S V α) := fun _ h => h
theorem KeepsM.emit (e : Ev V) : KeepsM I (Mp4.emit e : TM S V Unit) := fun _ h => h
theorem KeepsM.ofExcept (r : Except Err α) : KeepsM I (Mp4.ofExcept r : TM S V α) := by cases r <;> exact fun _ h => h
theorem KeepsM.tryM {x : TM S V α} (hx : KeepsM I x) : KeepsM I (Mp4.tryM x) := by
  intro s hs
  have := hx s hs
  unfold Mp4.tryM
  cases e : x s with
  | mk o s' => rw [e] at this; cases o <;> exact this

theorem keeps_runProg {path : List BoxType} {bi : BoxInfo} {ch : Nat → P → TM S V (List V)} (hch : ∀ co p, KeepsM I (ch co p)) :
    ∀ (g : Prog S P V) (co : Nat), g.Keeps I → KeepsM I (runProg m d path bi ch g co)
  | .ret v, co, _ => by rw [runProg]; exact .pure v
  | .err e, co, _ => by rw [runProg]; exact .fail e
  | .get k, co, h => by
    rw [runProg]
    intro s hs
    rw [M.bind_ok (M.get_run s)]
    exact keeps_runProg hch (k s.user) co (h s.user hs) s hs
  | .set u k, co, h => by
    rw [runProg]
    intro s hs
    rw [M.bind_ok (M.modify_run _ s)]
    exact keeps_runProg hch k co h.2 _ h.1
  | .stream mv k, co, h => by
    rw [runProg]
    intro s hs
    rw [M.bind_ok (M.get_run s), M.bind_ok (M.modify_run _ s)]
    exact keeps_runProg hch (k s.pos) co (h s.pos) _ hs
  | .readPayload k, co, h => by
    rw [runProg]
    refine .bind (.tryM (.liftP _)) fun x => ?_
    match x with
    | .ok (box, n) => exact keeps_runProg hch _ _ (h _)
    | .error e => exact keeps_runProg hch _ _ (h _)
  | .readData w k, co, h => by
    rw [runProg]
    exact .bind (.liftP _) fun x => keeps_runProg hch _ _ (h _ _)
  | .expand p k, co, h => by
    rw [runProg]
    refine .bind (.tryM (.liftP _)) fun x => ?_
    match x with
    | .error e => exact keeps_runProg hch _ _ (h _)
    | .ok co' => exact .bind (.emit _) fun _ => .bind (.tryM (hch _ _)) fun r => .bind (.emit _) fun _ => keeps_runProg hch _ _ (h _)

theorem keeps_fromInternal {h : Handler S P V} {rec : BoxInfo → Nat → List BoxType → Ctx → P → TM S V (List V)}
    (hh : ∀ p bi pre, (h ⟨p, bi, pre ++ [bi.type]⟩).Keeps I) (hr : ∀ bi total path ctx p, KeepsM I (rec bi total path ctx p)) (parent : Option BoxInfo) (bi : BoxInfo)
    (path : List BoxType) (p : P) : KeepsM I (fromInternal m d h rec parent bi path p) := by
  unfold fromInternal
  exact .bind (.liftP _) fun _ => .bind (.liftP _) fun _ => .bind (.liftP _) fun _ => .bind (.emit _) fun _ =>
    .bind (.tryM (keeps_runProg (fun _ _ => hr _ _ _ _ _) _ _ (hh _ _ _))) fun _ => .bind (.emit _) fun _ => .bind (.ofExcept _) fun _ =>
    .bind (.liftP _) fun _ => .pure _

theorem keeps_readStructure {h : Handler S P V} (hh : ∀ p bi pre, (h ⟨p, bi, pre ++ [bi.type]⟩).Keeps I) :
    ∀ (f : Nat) (parent : Option BoxInfo) (total : Nat) (isRoot : Bool) (path : List BoxType) (ctx : Ctx) (p : P),
    KeepsM I (readStructure m d h f parent total isRoot path ctx p)
  | 0, _, _, _, _, _, _ => by rw [readStructure]; exact fun _ h => h
  | f + 1, parent, total, isRoot, path, ctx, p => by
    rw [readStructure]
    split
    · refine .bind (.tryM (.liftP _)) fun x => ?_
      match x with
      | .error e =>
        show KeepsM I (if isRoot ∧ e = .eof then _ else _)
        split
        · exact .pure _
        · exact .fail _
      | .ok bi =>
        show KeepsM I (if ¬ isRoot ∧ total < bi.size then M.fail .tooLargeBoxSize else _)
        split
        · exact .fail _
        · exact .bind (keeps_fromInternal hh (fun _ _ _ _ _ => keeps_readStructure hh f _ _ _ _ _ _) _ _ _ _) fun y =>
            .bind (keeps_readStructure hh f _ _ _ _ _ _) fun _ => .pure _
    · split
      · exact .fail _
      · exact .pure _

theorem keeps_readBoxStructure {h : Handler S P V} (hh : ∀ p bi pre, (h ⟨p, bi, pre ++ [bi.type]⟩).Keeps I) (f : Nat) (p : P) : KeepsM I (readBoxStructure m d h f p) := by
  unfold readBoxStructure
  exact .bind (.liftP _) fun _ => keeps_readStructure hh _ _ _ _ _ _ _

theorem keeps_readBoxStructureFrom {h : Handler S P V} (hh : ∀ p bi pre, (h ⟨p, bi, pre ++ [bi.type]⟩).Keeps I) (f : Nat) (bi : BoxInfo) (p : P) :
    KeepsM I (readBoxStructureFrom m d h f bi p) := by
  unfold readBoxStructureFrom
  exact keeps_fromInternal hh (fun _ _ _ _ _ => keeps_readStructure hh f _ _ _ _ _ _) _ _ _ _

end

/-! ## Until a box of such a type is met -/

/-- The handler has been called for a box whose type is in `X`. -/
def Met (X : BoxType → Prop) (s : TSt S V) : Prop := ∃ parent path bi, Ev.enter parent path bi ∈ s.log ∧ X bi.type

/-- alike until then -/
abbrev Until (X : BoxType → Prop) (x y : TM S V α) : Prop := Up (fun a b => a = b) (Met X) x y

section
variable {β : Type}

/-- What leaves the record longer or as it is. -/
def Longer (x : TM S V α) : Prop := ∀ s e, e ∈ s.log → e ∈ (x s).2.log

theorem Up.refl {x : TM S V α} (hx : Longer x) : Until X x x :=
  ⟨fun a b h => .inr (by subst h; exact ⟨rfl, rfl⟩), fun a ⟨pa, pt, bi, h1, h2⟩ => ⟨pa, pt, bi, hx a _ h1, h2⟩⟩

theorem Up.liftP (x : PM α) : Until X (Mp4.liftP x : TM S V α) (Mp4.liftP x) := .refl fun _ _ h => h
theorem Up.emit (e : Ev V) : Until X (Mp4.emit e : TM S V Unit) (Mp4.emit e) := .refl fun _ _ h => List.mem_append_left _ h
theorem Up.ofExcept (r : Except Err α) : Until X (Mp4.ofExcept r : TM S V α) (Mp4.ofExcept r) := .refl fun _ _ h => by cases r <;> exact h
theorem Up.hang : Until X (M.hang : TM S V α) M.hang := .refl fun _ _ h => h
theorem Up.get : Until X (M.get : TM S V (TSt S V)) M.get := .refl fun _ _ h => h
theorem Up.setUser (u : S) : Until X (M.modify fun st => { st with user := u } : TM S V Unit) (M.modify fun st => { st with user := u }) := .refl fun _ _ h => h
theorem Up.move (mv : Nat → Nat) : Until X (M.modify fun st => { st with pos := mv st.pos } : TM S V Unit) (M.modify fun st => { st with pos := mv st.pos }) :=
  .refl fun _ _ h => h

theorem Up.tryM {x y : TM S V α} (h : Until X x y) : Until X (Mp4.tryM x) (Mp4.tryM y) := by
  have st : ∀ (z : TM S V α) s, (Mp4.tryM z s).2 = (z s).2 := fun z s => by
    unfold Mp4.tryM
    cases e : z s with
    | mk o s' => cases o <;> rfl
  refine ⟨fun a b hab => ?_, fun a ha => by rw [st]; exact h.2 a ha⟩
  rw [st, st]
  refine (h.1 a b hab).imp id fun ⟨h1, h2⟩ => ⟨?_, h2⟩
  unfold Mp4.tryM
  cases e : x a with
  | mk o s' =>
    cases e' : y b with
    | mk o' s'' =>
      rw [e, e'] at h1
      simp only at h1
      subst h1
      cases o <;> rfl

/-- Running a program: alike if the registries agree on the type of the box, or if it is one of those already. -/
theorem until_runProg {path : List BoxType} {bi : BoxInfo} {ch ch' : Nat → P → TM S V (List V)} (hch : ∀ co p, Until X (ch co p) (ch' co p))
    (hm : m bi.type = m' bi.type) : ∀ (g : Prog S P V) (co : Nat), Until X (runProg m d path bi ch g co) (runProg m' d path bi ch' g co)
  | .ret v, co => by rw [runProg, runProg]; exact .pure v
  | .err e, co => by rw [runProg, runProg]; exact .fail e
  | .get k, co => by rw [runProg, runProg]; exact .bind .get fun s => until_runProg hch hm _ _
  | .set u k, co => by rw [runProg, runProg]; exact .bind (.setUser u) fun _ => until_runProg hch hm _ _
  | .stream mv k, co => by rw [runProg, runProg]; exact .bind .get fun s => .bind (.move mv) fun _ => until_runProg hch hm _ _
  | .readPayload k, co => by
    rw [runProg, runProg, readPayloadP_same hm]
    refine .bind (.tryM (.liftP _)) fun x => ?_
    match x with
    | .ok (box, n) => exact until_runProg hch hm _ _
    | .error e => exact until_runProg hch hm _ _
  | .readData w k, co => by rw [runProg, runProg]; exact .bind (.liftP _) fun x => until_runProg hch hm _ _
  | .expand p k, co => by
    rw [runProg, runProg, expandStart_same hm]
    refine .bind (.tryM (.liftP _)) fun x => ?_
    match x with
    | .error e => exact until_runProg hch hm _ _
    | .ok co' => exact .bind (.emit _) fun _ => .bind (.tryM (hch _ _)) fun r => .bind (.emit _) fun _ => until_runProg hch hm _ _

theorem longer_bind {x : TM S V α} {k : α → TM S V β} (hx : Longer x) (hk : ∀ a, Longer (k a)) : Longer (x >>= k) := by
  intro s e h
  have := hx s e h
  rw [M.bind_run]
  cases e1 : x s with
  | mk o s' =>
    rw [e1] at this
    cases o with
    | ok a => exact hk a s' e this
    | err e => exact this
    | panic => exact this
    | hang => exact this

theorem longer_tryM {x : TM S V α} (hx : Longer x) : Longer (Mp4.tryM x) := by
  intro s e h
  have := hx s e h
  unfold Mp4.tryM
  cases e1 : x s with
  | mk o s' => rw [e1] at this; cases o <;> exact this

theorem longer_emit (e : Ev V) : Longer (Mp4.emit e : TM S V Unit) := fun _ _ h => List.mem_append_left _ h
theorem longer_liftP (x : PM α) : Longer (Mp4.liftP x : TM S V α) := fun _ _ h => h
theorem longer_pure (a : α) : Longer (Pure.pure a : TM S V α) := fun _ _ h => h
theorem longer_fail (e : Err) : Longer (M.fail e : TM S V α) := fun _ _ h => h

theorem longer_runProg {path : List BoxType} {bi : BoxInfo} {ch : Nat → P → TM S V (List V)} (hch : ∀ co p, Longer (ch co p)) :
    ∀ (g : Prog S P V) (co : Nat), Longer (runProg m d path bi ch g co)
  | .ret v, co => by rw [runProg]; exact longer_pure v
  | .err e, co => by rw [runProg]; exact longer_fail e
  | .get k, co => by rw [runProg]; exact longer_bind (fun _ _ h => h) fun s => longer_runProg hch _ _
  | .set u k, co => by rw [runProg]; exact longer_bind (fun _ _ h => h) fun _ => longer_runProg hch _ _
  | .stream mv k, co => by rw [runProg]; exact longer_bind (fun _ _ h => h) fun s => longer_bind (fun _ _ h => h) fun _ => longer_runProg hch _ _
  | .readPayload k, co => by
    rw [runProg]
    refine longer_bind (longer_tryM (longer_liftP _)) fun x => ?_
    match x with
    | .ok (box, n) => exact longer_runProg hch _ _
    | .error e => exact longer_runProg hch _ _
  | .readData w k, co => by rw [runProg]; exact longer_bind (longer_liftP _) fun x => longer_runProg hch _ _
  | .expand p k, co => by
    rw [runProg]
    refine longer_bind (longer_tryM (longer_liftP _)) fun x => ?_
    match x with
    | .error e => exact longer_runProg hch _ _
    | .ok co' => exact longer_bind (longer_emit _) fun _ => longer_bind (longer_tryM (hch _ _)) fun r => longer_bind (longer_emit _) fun _ => longer_runProg hch _ _

theorem until_fromInternal (hX : SameOutside X m m') (hf : m tFtyp = m' tFtyp) (hk : m tKeys = m' tKeys) {h h' : Handler S P V}
    (hh : ∀ hd, ¬ X hd.info.type → h hd = h' hd)
    {rec rec' : BoxInfo → Nat → List BoxType → Ctx → P → TM S V (List V)} (hr : ∀ bi total path ctx p, Until X (rec bi total path ctx p) (rec' bi total path ctx p))
    (hl : ∀ bi total path ctx p, Longer (rec bi total path ctx p))
    (parent : Option BoxInfo) (bi : BoxInfo) (path : List BoxType) (p : P) :
    Until X (fromInternal m d h rec parent bi path p) (fromInternal m' d h' rec' parent bi path p) := by
  unfold fromInternal
  refine .bind (.liftP _) fun _ => ?_
  rw [checkFtyp_same hf]
  refine .bind (.liftP _) fun b1 => ?_
  rw [checkKeys_same hk]
  refine .bind (.liftP _) fun b2 => ?_
  by_cases hx : X b2.type
  · have hl1 : Longer (do
        let r ← Mp4.tryM (runProg m d (path ++ [b2.type]) b2
          (fun co p => rec b2 (sub64 (add64 b2.offset b2.size) co) (path ++ [b2.type]) (childCtx b2) p)
          (h ⟨p, b2, path ++ [b2.type]⟩) 0)
        Mp4.emit (.leave parent (path ++ [b2.type]) b2 r)
        let v ← Mp4.ofExcept r
        let _ ← Mp4.liftP b2.seekToEnd
        Pure.pure (v, b2) : TM S V (V × BoxInfo)) :=
      longer_bind (longer_tryM (longer_runProg (fun _ _ => hl _ _ _ _ _) _ _)) fun r => longer_bind (longer_emit _) fun _ =>
        longer_bind (fun _ _ h => by cases r <;> exact h) fun _ => longer_bind (longer_liftP _) fun _ => longer_pure _
    refine ⟨fun a b _ => .inl ⟨parent, path ++ [b2.type], b2, ?_, hx⟩, fun a ⟨pa, pt, bi, h1, h2⟩ => ⟨pa, pt, bi, ?_, h2⟩⟩
    · exact hl1 _ _ (List.mem_append_right _ (List.mem_singleton.2 rfl))
    · exact hl1 _ _ (List.mem_append_left _ h1)
  · have e := hh ⟨p, b2, path ++ [b2.type]⟩ hx
    exact .bind (.emit _) fun _ => .bind (.tryM (e ▸ until_runProg (fun _ _ => hr _ _ _ _ _) (hX _ hx) _ _)) fun r => .bind (.emit _) fun _ =>
      .bind (.ofExcept _) fun _ => .bind (.liftP _) fun _ => .pure _

theorem longer_fromInternal {h : Handler S P V} {rec : BoxInfo → Nat → List BoxType → Ctx → P → TM S V (List V)}
    (hl : ∀ bi total path ctx p, Longer (rec bi total path ctx p)) (parent : Option BoxInfo) (bi : BoxInfo) (path : List BoxType) (p : P) :
    Longer (fromInternal m d h rec parent bi path p) := by
  unfold fromInternal
  exact longer_bind (longer_liftP _) fun _ => longer_bind (longer_liftP _) fun _ => longer_bind (longer_liftP _) fun _ => longer_bind (longer_emit _) fun _ =>
    longer_bind (longer_tryM (longer_runProg (fun _ _ => hl _ _ _ _ _) _ _)) fun r => longer_bind (longer_emit _) fun _ =>
    longer_bind (fun _ _ h => by cases r <;> exact h) fun _ => longer_bind (longer_liftP _) fun _ => longer_pure _

theorem longer_readStructure {h : Handler S P V} :
    ∀ (f : Nat) (parent : Option BoxInfo) (total : Nat) (isRoot : Bool) (path : List BoxType) (ctx : Ctx) (p : P),
    Longer (readStructure m d h f parent total isRoot path ctx p)
  | 0, _, _, _, _, _, _ => by rw [readStructure]; exact fun _ _ h => h
  | f + 1, parent, total, isRoot, path, ctx, p => by
    rw [readStructure]
    split
    · refine longer_bind (longer_tryM (longer_liftP _)) fun x => ?_
      match x with
      | .error e =>
        show Longer (if isRoot ∧ e = .eof then _ else _)
        split
        · exact longer_pure _
        · exact longer_fail _
      | .ok bi =>
        show Longer (if ¬ isRoot ∧ total < bi.size then M.fail .tooLargeBoxSize else _)
        split
        · exact longer_fail _
        · exact longer_bind (longer_fromInternal (fun _ _ _ _ _ => longer_readStructure f _ _ _ _ _ _) _ _ _ _) fun y =>
            longer_bind (longer_readStructure f _ _ _ _ _ _) fun _ => longer_pure _
    · split
      · exact longer_fail _
      · exact longer_pure _

theorem until_readStructure (hX : SameOutside X m m') (hf : m tFtyp = m' tFtyp) (hk : m tKeys = m' tKeys) {h h' : Handler S P V}
    (hh : ∀ hd, ¬ X hd.info.type → h hd = h' hd) :
    ∀ (f : Nat) (parent : Option BoxInfo) (total : Nat) (isRoot : Bool) (path : List BoxType) (ctx : Ctx) (p : P),
    Until X (readStructure m d h f parent total isRoot path ctx p) (readStructure m' d h' f parent total isRoot path ctx p)
  | 0, _, _, _, _, _, _ => by rw [readStructure, readStructure]; exact .hang
  | f + 1, parent, total, isRoot, path, ctx, p => by
    rw [readStructure, readStructure]
    split
    · refine .bind (.tryM (.liftP _)) fun x => ?_
      match x with
      | .error e =>
        show Until X (if isRoot ∧ e = .eof then _ else _) (if isRoot ∧ e = .eof then _ else _)
        split
        · exact .pure _
        · exact .fail _
      | .ok bi =>
        show Until X (if ¬ isRoot ∧ total < bi.size then M.fail .tooLargeBoxSize else _) (if ¬ isRoot ∧ total < bi.size then M.fail .tooLargeBoxSize else _)
        split
        · exact .fail _
        · exact .bind (until_fromInternal hX hf hk hh (fun _ _ _ _ _ => until_readStructure hX hf hk hh f _ _ _ _ _ _)
            (fun _ _ _ _ _ => longer_readStructure f _ _ _ _ _ _) _ _ _ _) fun y =>
            .bind (until_readStructure hX hf hk hh f _ _ _ _ _ _) fun _ => .pure _
    · split
      · exact .fail _
      · exact .pure _

theorem until_readBoxStructure (hX : SameOutside X m m') (hf : m tFtyp = m' tFtyp) (hk : m tKeys = m' tKeys) {h h' : Handler S P V}
    (hh : ∀ hd, ¬ X hd.info.type → h hd = h' hd) (f : Nat) (p : P) : Until X (readBoxStructure m d h f p) (readBoxStructure m' d h' f p) := by
  unfold readBoxStructure
  exact .bind (.liftP _) fun _ => until_readStructure hX hf hk hh _ _ _ _ _ _ _

end

end Mp4
