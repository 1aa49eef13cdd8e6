import Verif.Lemmas.Traverse

/-! # Running a traversal forwards -/

namespace Mp4

section
variable {S P V : Type} {d : Bytes}

theorem emit_run (e : Ev V) (s : TSt S V) : (emit e : TM S V Unit) s = (.ok (), { s with log := s.log ++ [e] }) := (rfl)

theorem checkFtyp_skip {path : List BoxType} {bi : BoxInfo} (h : path ≠ [] ∨ bi.type ≠ tFtyp) (pos : Nat) :
    checkFtyp BoxMap.std d path bi pos = (.ok bi, pos) := by
  unfold checkFtyp
  rw [if_neg]
  · rfl
  · rintro ⟨h1, h2⟩
    rcases h with h | h
    · exact h (List.eq_nil_of_length_eq_zero h1)
    · exact h h2

theorem checkKeys_skip {bi : BoxInfo} (h : bi.type ≠ tKeys) (pos : Nat) :
    checkKeys BoxMap.std d bi pos = (.ok bi, pos) := by
  unfold checkKeys
  rw [if_neg h]
  rfl

/-- the state in which the handler is called -/
def entered (st : TSt S V) (parent : Option BoxInfo) (path : List BoxType) (bi : BoxInfo) : TSt S V :=
  ⟨bi.offset + bi.headerSize, st.user, st.log ++ [.enter parent path bi]⟩

/-- `readBoxStructureFromInternal` in terms of the handler's program -/
theorem fromInternal_run {h : Handler S P V} {rec : BoxInfo → Nat → List BoxType → Ctx → P → TM S V (List V)}
    (hd : d.length ≤ maxAlloc) {parent : Option BoxInfo} {bi bi1 bi2 : BoxInfo} {path : List BoxType} {p : P} {st : TSt S V}
    (hin : bi.offset + bi.headerSize ≤ d.length)
    (e1 : checkFtyp BoxMap.std d path bi (bi.offset + bi.headerSize) = (.ok bi1, bi.offset + bi.headerSize))
    (e2 : checkKeys BoxMap.std d bi1 (bi.offset + bi.headerSize) = (.ok bi2, bi.offset + bi.headerSize))
    (hs : bi2.offset + bi2.headerSize = bi.offset + bi.headerSize) {o : Out V} {st2 : TSt S V}
    (hr : runProg BoxMap.std d (path ++ [bi2.type]) bi2
      (fun co p => rec bi2 (sub64 (add64 bi2.offset bi2.size) co) (path ++ [bi2.type]) (childCtx bi2) p)
      (h ⟨p, bi2, path ++ [bi2.type]⟩) 0 (entered st parent (path ++ [bi2.type]) bi2) = (o, st2)) :
    fromInternal BoxMap.std d h rec parent bi path p st =
      match o with
      | .ok v =>
        if (bi2.offset + bi2.size) % U64 < 2 ^ 63 then
          (.ok (v, bi2), ⟨(bi2.offset + bi2.size) % U64, st2.user, st2.log ++ [.leave parent (path ++ [bi2.type]) bi2 (.ok v)]⟩)
        else (.err .negativeSeek, ⟨st2.pos, st2.user, st2.log ++ [.leave parent (path ++ [bi2.type]) bi2 (.ok v)]⟩)
      | .err e => (.err e, ⟨st2.pos, st2.user, st2.log ++ [.leave parent (path ++ [bi2.type]) bi2 (.error e)]⟩)
      | .panic => (.panic, st2)
      | .hang => (.hang, st2) := by
  unfold fromInternal
  have e0 : (liftP bi.seekToPayload : TM S V Nat) st =
      (.ok (bi.offset + bi.headerSize), { st with pos := bi.offset + bi.headerSize }) := by
    rw [liftP_run, seekToPayload_ok hd hin]
  rw [M.bind_ok e0]
  have e1' : (liftP (checkFtyp BoxMap.std d path bi) : TM S V BoxInfo) { st with pos := bi.offset + bi.headerSize } =
      (.ok bi1, { st with pos := bi.offset + bi.headerSize }) := by rw [liftP_run, e1]
  have e2' : (liftP (checkKeys BoxMap.std d bi1) : TM S V BoxInfo) { st with pos := bi.offset + bi.headerSize } =
      (.ok bi2, { st with pos := bi.offset + bi.headerSize }) := by rw [liftP_run, e2]
  rw [M.bind_ok e1', M.bind_ok e2', M.bind_ok (emit_run _ _)]
  have hst : ({ st with pos := bi.offset + bi.headerSize, log := st.log ++ [.enter parent (path ++ [bi2.type]) bi2] } : TSt S V) =
      entered st parent (path ++ [bi2.type]) bi2 := by
    unfold entered; rw [hs]
  simp only [hst]
  match o, hr with
  | .ok v, hr =>
    have e4 : tryM (runProg BoxMap.std d (path ++ [bi2.type]) bi2
        (fun co p => rec bi2 (sub64 (add64 bi2.offset bi2.size) co) (path ++ [bi2.type]) (childCtx bi2) p)
        (h ⟨p, bi2, path ++ [bi2.type]⟩) 0) (entered st parent (path ++ [bi2.type]) bi2) = (.ok (.ok v), st2) := by
      unfold tryM; rw [hr]
    rw [M.bind_ok e4, M.bind_ok (emit_run _ _)]
    have e6 : ∀ s, (ofExcept (.ok v) : TM S V V) s = (.ok v, s) := fun s => rfl
    rw [M.bind_ok (e6 _)]
    have em : add64 bi2.offset bi2.size % U64 = (bi2.offset + bi2.size) % U64 := by
      unfold add64; rw [Nat.mod_mod]
    simp only
    split
    · next hlt =>
      have e7 : ∀ s, (liftP bi2.seekToEnd : TM S V Nat) s =
          (.ok ((bi2.offset + bi2.size) % U64), { s with pos := (bi2.offset + bi2.size) % U64 }) := by
        intro s
        rw [liftP_run]
        unfold BoxInfo.seekToEnd seekStartP
        rw [em, if_neg (Nat.not_le_of_lt hlt)]
      rw [M.bind_ok (e7 _)]
      rfl
    · next hlt =>
      have e7 : ∀ s, (liftP bi2.seekToEnd : TM S V Nat) s = (.err .negativeSeek, s) := by
        intro s
        rw [liftP_run]
        unfold BoxInfo.seekToEnd seekStartP
        rw [em, if_pos (Nat.le_of_not_lt hlt)]
      rw [M.bind_err (e7 _)]
  | .err e, hr =>
    have e4 : tryM (runProg BoxMap.std d (path ++ [bi2.type]) bi2
        (fun co p => rec bi2 (sub64 (add64 bi2.offset bi2.size) co) (path ++ [bi2.type]) (childCtx bi2) p)
        (h ⟨p, bi2, path ++ [bi2.type]⟩) 0) (entered st parent (path ++ [bi2.type]) bi2) = (.ok (.error e), st2) := by
      unfold tryM; rw [hr]
    rw [M.bind_ok e4, M.bind_ok (emit_run _ _)]
    have e6 : ∀ s, (ofExcept (.error e) : TM S V V) s = (.err e, s) := fun s => rfl
    rw [M.bind_err (e6 _)]
  | .panic, hr =>
    have e4 : tryM (runProg BoxMap.std d (path ++ [bi2.type]) bi2
        (fun co p => rec bi2 (sub64 (add64 bi2.offset bi2.size) co) (path ++ [bi2.type]) (childCtx bi2) p)
        (h ⟨p, bi2, path ++ [bi2.type]⟩) 0) (entered st parent (path ++ [bi2.type]) bi2) = (.panic, st2) := by
      unfold tryM; rw [hr]
    rw [M.bind_panic e4]
  | .hang, hr =>
    have e4 : tryM (runProg BoxMap.std d (path ++ [bi2.type]) bi2
        (fun co p => rec bi2 (sub64 (add64 bi2.offset bi2.size) co) (path ++ [bi2.type]) (childCtx bi2) p)
        (h ⟨p, bi2, path ++ [bi2.type]⟩) 0) (entered st parent (path ++ [bi2.type]) bi2) = (.hang, st2) := by
      unfold tryM; rw [hr]
    rw [M.bind_hang e4]

/-- the state in which children are read -/
def opened (st : TSt S V) (path : List BoxType) (bi : BoxInfo) (start : Nat) : TSt S V :=
  ⟨start, st.user, st.log ++ [.openBox path bi start]⟩

/-- `Expand` when the payload can be decoded -/
theorem runProg_expand (hd : d.length ≤ maxAlloc) {path : List BoxType} {bi : BoxInfo} {children : Nat → P → TM S V (List V)}
    {q : P} {k : Except Err (List V) → Prog S P V} {st : TSt S V} (hin : bi.offset + bi.headerSize ≤ d.length) {n : Nat}
    (hn : PayloadN d bi n) {o : Out (List V)} {st2 : TSt S V}
    (hc : children (bi.offset + bi.headerSize + n) q (opened st path bi (bi.offset + bi.headerSize + n)) = (o, st2)) :
    runProg BoxMap.std d path bi children (.expand q k) 0 st =
      match o with
      | .ok vs => runProg BoxMap.std d path bi children (k (.ok vs)) (bi.offset + bi.headerSize + n)
          ⟨st2.pos, st2.user, st2.log ++ [.closeBox path bi (.ok vs)]⟩
      | .err e => runProg BoxMap.std d path bi children (k (.error e)) (bi.offset + bi.headerSize + n)
          ⟨st2.pos, st2.user, st2.log ++ [.closeBox path bi (.error e)]⟩
      | .panic => (.panic, st2)
      | .hang => (.hang, st2) := by
  have he : expandStart BoxMap.std d bi 0 st.pos = (.ok (bi.offset + bi.headerSize + n), bi.offset + bi.headerSize + n) := by
    rcases expandStart_post hd hin (co := 0) (.inl rfl) st.pos with ⟨n', hn', he⟩ | ⟨e, p, he⟩ | ⟨p, he, hh⟩
    · obtain ⟨b, p, h1⟩ := hn
      obtain ⟨b', p', h1'⟩ := hn'
      rw [h1] at h1'
      cases h1'
      exact he
    · exfalso
      obtain ⟨b, p', h1⟩ := hn
      unfold expandStart at he
      rw [if_pos rfl, M.bind_ok ((readPayloadP_ok hd hin st.pos).trans h1)] at he
      cases he
    · exfalso
      obtain ⟨b, p', h1⟩ := hn
      unfold PayloadHangs at hh
      rw [h1] at hh
      cases hh
  have e1 : (tryM (liftP (expandStart BoxMap.std d bi 0)) : TM S V _) st =
      (.ok (.ok (bi.offset + bi.headerSize + n)), { st with pos := bi.offset + bi.headerSize + n }) := by
    unfold tryM; rw [liftP_run, he]
  rw [runProg, M.bind_ok e1]
  simp only
  rw [M.bind_ok (emit_run _ _)]
  have hst : ({ st with pos := bi.offset + bi.headerSize + n, log := st.log ++ [.openBox path bi (bi.offset + bi.headerSize + n)] } : TSt S V) =
      opened st path bi (bi.offset + bi.headerSize + n) := rfl
  simp only [hst]
  match o, hc with
  | .ok vs, hc =>
    have e3 : tryM (children (bi.offset + bi.headerSize + n) q) (opened st path bi (bi.offset + bi.headerSize + n)) =
        (.ok (.ok vs), st2) := by unfold tryM; rw [hc]
    rw [M.bind_ok e3, M.bind_ok (emit_run _ _)]
  | .err e, hc =>
    have e3 : tryM (children (bi.offset + bi.headerSize + n) q) (opened st path bi (bi.offset + bi.headerSize + n)) =
        (.ok (.error e), st2) := by unfold tryM; rw [hc]
    rw [M.bind_ok e3, M.bind_ok (emit_run _ _)]
  | .panic, hc =>
    have e3 : tryM (children (bi.offset + bi.headerSize + n) q) (opened st path bi (bi.offset + bi.headerSize + n)) =
        (.panic, st2) := by unfold tryM; rw [hc]
    rw [M.bind_panic e3]
  | .hang, hc =>
    have e3 : tryM (children (bi.offset + bi.headerSize + n) q) (opened st path bi (bi.offset + bi.headerSize + n)) =
        (.hang, st2) := by unfold tryM; rw [hc]
    rw [M.bind_hang e3]

/-- one step of a row -/
theorem readStructure_step {h : Handler S P V} {f : Nat} {parent : Option BoxInfo} {total : Nat} {isRoot : Bool}
    {path : List BoxType} {ctx : Ctx} {p : P} {st : TSt S V} {bi : BoxInfo} {q : Nat}
    (hr : isRoot = true ∨ 8 ≤ total) (he : readBoxInfo d st.pos = (.ok bi, q)) (hs : isRoot = true ∨ bi.size ≤ total)
    {o : Out (V × BoxInfo)} {st1 : TSt S V}
    (hf : fromInternal BoxMap.std d h (fun par total path ctx p => readStructure BoxMap.std d h f (some par) total false path ctx p)
      parent { bi with ctx := ctx } path p { st with pos := q } = (o, st1)) :
    readStructure BoxMap.std d h (f + 1) parent total isRoot path ctx p st =
      match o with
      | .ok (v, bi') => ((readStructure BoxMap.std d h f parent (sub64 total bi'.size) isRoot path (nextCtx ctx bi') p) >>=
          fun vs => pure (v :: vs)) st1
      | .err e => (.err e, st1)
      | .panic => (.panic, st1)
      | .hang => (.hang, st1) := by
  rw [readStructure, if_pos (show isRoot = true ∨ smallHeaderSize ≤ total from hr)]
  have e1 : (tryM (liftP (readBoxInfo d)) : TM S V _) st = (.ok (.ok bi), { st with pos := q }) := by
    unfold tryM; rw [liftP_run, he]
  rw [M.bind_ok e1]
  simp only
  rw [if_neg (by
    rintro ⟨h1, h2⟩
    rcases hs with hs | hs
    · exact h1 hs
    · omega)]
  match o, hf with
  | .ok (v, bi'), hf => rw [M.bind_ok hf]
  | .err e, hf => rw [M.bind_err hf]
  | .panic, hf => rw [M.bind_panic hf]
  | .hang, hf => rw [M.bind_hang hf]

end
end Mp4
