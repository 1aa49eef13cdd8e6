import Verif.Lemmas.Forest

/-! # Traversals that succeed -/

namespace Mp4

open Mp4.Props

section
variable {S P V : Type} {d : Bytes}

/-- At the root the row ends where no header is; inside a box, when fewer bytes are left than a header has, which are none unless the file is
QuickTime compatible. -/
def RowEnds (d : Bytes) (isRoot : Bool) (ctx : Ctx) (pos total : Nat) : Prop :=
  if isRoot then isoHeader (d.drop pos) = .truncated else total < 8 ∧ (total = 0 ∨ ctx.isQuickTimeCompatible = true)

/-- a row that was read with success -/
theorem row_ok_inv (hd : d.length ≤ maxAlloc) {h : Handler S P V} {f : Nat} {parent : Option BoxInfo} {total : Nat} {isRoot : Bool}
    {path : List BoxType} {ctx : Ctx} {p : P} {st st2 : TSt S V} {vs : List V}
    (hr : readStructure BoxMap.std d h (f + 1) parent total isRoot path ctx p st = (.ok vs, st2)) :
    (vs = [] ∧ st2.user = st.user ∧ RowEnds d isRoot ctx st.pos total) ∨
    ∃ bi v vs' st1, BoxAt d total isRoot path ctx st.pos bi ∧ vs = v :: vs' ∧
      runProg BoxMap.std d (path ++ [bi.type]) bi
        (fun co p => readStructure BoxMap.std d h f (some bi) (sub64 (add64 bi.offset bi.size) co) false (path ++ [bi.type]) (childCtx bi) p)
        (h ⟨p, bi, path ++ [bi.type]⟩) 0 (entered st parent (path ++ [bi.type]) bi) = (.ok v, st1) ∧
      (bi.offset + bi.size) % U64 < 2 ^ 63 ∧
      readStructure BoxMap.std d h f parent (sub64 total bi.size) isRoot path (nextCtx ctx bi) p
        ⟨(bi.offset + bi.size) % U64, st1.user, st1.log ++ [.leave parent (path ++ [bi.type]) bi (.ok v)]⟩ = (.ok vs', st2) := by
  by_cases hc : isRoot = true ∨ 8 ≤ total
  · have hiso := readBoxInfo_iso d st.pos (by simp only [maxAlloc] at hd; omega)
    rcases readBoxInfo_header hd st.pos ctx with ⟨bi, he, ho, hb⟩ | ⟨e, p', he⟩
    · right
      by_cases hs : isRoot = true ∨ bi.size ≤ total
      · rcases checks_post hd hb path with ⟨bi1, bi2, e1, e2, s2, hb2, ho2⟩ | ⟨e, p', e1, -, -, -⟩ | ⟨bi1, e, p', e1, e2, -, -⟩
        · generalize hx : runProg BoxMap.std d (path ++ [bi2.type]) bi2
            (fun co p => readStructure BoxMap.std d h f (some bi2) (sub64 (add64 bi2.offset bi2.size) co) false (path ++ [bi2.type]) (childCtx bi2) p)
            (h ⟨p, bi2, path ++ [bi2.type]⟩) 0 (entered { st with pos := st.pos + bi.headerSize } parent (path ++ [bi2.type]) bi2) = x
          obtain ⟨o, st1⟩ := x
          have hfi := fromInternal_run (h := h) (parent := parent) (path := path) (p := p)
            (rec := fun par total path ctx p => readStructure BoxMap.std d h f (some par) total false path ctx p)
            (st := { st with pos := st.pos + bi.headerSize }) hd hb.inside e1 e2 (by rw [s2.offset, s2.hdr]) hx
          generalize hy : fromInternal BoxMap.std d h (fun par total path ctx p => readStructure BoxMap.std d h f (some par) total false path ctx p)
            parent { bi with ctx := ctx } path p { st with pos := st.pos + bi.headerSize } = y at hfi
          obtain ⟨o', st'⟩ := y
          rw [readStructure_step hc he hs hy] at hr
          match o, hx, hfi with
          | .err e, hx, hfi => cases hfi; cases hr
          | .panic, hx, hfi => cases hfi; cases hr
          | .hang, hx, hfi => cases hfi; cases hr
          | .ok v, hx, hfi =>
            simp only at hfi
            by_cases h63 : (bi2.offset + bi2.size) % U64 < 2 ^ 63
            · rw [if_pos h63] at hfi
              cases hfi
              simp only at hr
              obtain ⟨vs', st3, h1, h2⟩ := bind_ok_inv hr
              cases h2
              refine ⟨bi2, v, vs', st1, ⟨s2.offset.trans ho, hb2, ho2, ?_⟩, rfl, hx, h63, h1⟩
              rcases hc with hc | hc
              · exact .inl hc
              · rcases hs with hs | hs
                · exact .inl hs
                · exact .inr ⟨hc, by rw [s2.size]; exact hs⟩
            · rw [if_neg h63] at hfi
              cases hfi
              cases hr
        · exfalso
          rw [readStructure_step hc he hs (o := .err e) (st1 := { st with pos := p' }) (by
            unfold fromInternal
            have e0 : (liftP ({ bi with ctx := ctx } : BoxInfo).seekToPayload : TM S V Nat) { st with pos := st.pos + bi.headerSize } =
                (.ok (bi.offset + bi.headerSize), { st with pos := bi.offset + bi.headerSize }) := by
              rw [liftP_run, seekToPayload_ok hd hb.inside]
            rw [M.bind_ok e0]
            have e1' : (liftP (checkFtyp BoxMap.std d path { bi with ctx := ctx }) : TM S V BoxInfo) { st with pos := bi.offset + bi.headerSize } =
                (.err e, { st with pos := p' }) := by rw [liftP_run, e1]
            rw [M.bind_err e1'])] at hr
          cases hr
        · exfalso
          rw [readStructure_step hc he hs (o := .err e) (st1 := { st with pos := p' }) (by
            unfold fromInternal
            have e0 : (liftP ({ bi with ctx := ctx } : BoxInfo).seekToPayload : TM S V Nat) { st with pos := st.pos + bi.headerSize } =
                (.ok (bi.offset + bi.headerSize), { st with pos := bi.offset + bi.headerSize }) := by
              rw [liftP_run, seekToPayload_ok hd hb.inside]
            rw [M.bind_ok e0]
            have e1' : (liftP (checkFtyp BoxMap.std d path { bi with ctx := ctx }) : TM S V BoxInfo) { st with pos := bi.offset + bi.headerSize } =
                (.ok bi1, { st with pos := bi.offset + bi.headerSize }) := by rw [liftP_run, e1]
            have e2' : (liftP (checkKeys BoxMap.std d bi1) : TM S V BoxInfo) { st with pos := bi.offset + bi.headerSize } =
                (.err e, { st with pos := p' }) := by rw [liftP_run, e2]
            rw [M.bind_ok e1', M.bind_err e2'])] at hr
          cases hr
      · exfalso
        rw [readStructure, if_pos (show isRoot = true ∨ smallHeaderSize ≤ total from hc)] at hr
        have e1 : (tryM (liftP (readBoxInfo d)) : TM S V _) st = (.ok (.ok bi), { st with pos := st.pos + bi.headerSize }) := by
          unfold tryM; rw [liftP_run, he]
        rw [M.bind_ok e1] at hr
        simp only at hr
        rw [if_pos ⟨fun h => hs (.inl h), Nat.lt_of_not_le fun h => hs (.inr h)⟩] at hr
        cases hr
    · left
      rw [readStructure, if_pos (show isRoot = true ∨ smallHeaderSize ≤ total from hc)] at hr
      have e1 : (tryM (liftP (readBoxInfo d)) : TM S V _) st = (.ok (.error e), { st with pos := p' }) := by
        unfold tryM; rw [liftP_run, he]
      rw [M.bind_ok e1] at hr
      simp only at hr
      split at hr
      · next h =>
        cases hr
        refine ⟨rfl, rfl, ?_⟩
        unfold RowEnds
        rw [if_pos h.1]
        rw [he] at hiso
        split at hiso
        · cases hiso
        · assumption
        · obtain ⟨q, hq⟩ := hiso
          cases hq
          exact absurd h.2 (by decide)
      · cases hr
  · left
    have h1 : isRoot = false := by
      cases isRoot with
      | false => rfl
      | true => exact absurd (.inl rfl) hc
    have h2 : total < 8 := Nat.lt_of_not_le fun h => hc (.inr h)
    rw [readStructure, if_neg (show ¬(isRoot = true ∨ smallHeaderSize ≤ total) from hc)] at hr
    split at hr
    · cases hr
    · next h =>
      cases hr
      refine ⟨rfl, rfl, ?_⟩
      unfold RowEnds
      rw [if_neg (by simp [h1])]
      refine ⟨h2, ?_⟩
      by_cases h0 : total = 0
      · exact .inl h0
      · right
        cases hq : ctx.isQuickTimeCompatible with
        | true => rfl
        | false => exact absurd ⟨h0, by simp [hq]⟩ h

/-- an expansion whose errors are handed on -/
theorem expand_ok_inv (hd : d.length ≤ maxAlloc) {path : List BoxType} {bi : BoxInfo} {children : Nat → P → TM S V (List V)} {q : P}
    {k : Except Err (List V) → Prog S P V} {st st2 : TSt S V} {v : V} (hin : bi.offset + bi.headerSize ≤ d.length)
    (hk : ∀ e, ∃ e', k (.error e) = .err e')
    (hr : runProg BoxMap.std d path bi children (.expand q k) 0 st = (.ok v, st2)) :
    ∃ n vs st1, PayloadN d bi n ∧ children (bi.offset + bi.headerSize + n) q (opened st path bi (bi.offset + bi.headerSize + n)) = (.ok vs, st1) ∧
      runProg BoxMap.std d path bi children (k (.ok vs)) (bi.offset + bi.headerSize + n)
        ⟨st1.pos, st1.user, st1.log ++ [.closeBox path bi (.ok vs)]⟩ = (.ok v, st2) := by
  rcases expandStart_post hd hin (co := 0) (.inl rfl) st.pos with ⟨n, hn, he⟩ | ⟨e, p, he⟩ | ⟨p, he, hh⟩
  · refine ⟨n, ?_⟩
    generalize hx : children (bi.offset + bi.headerSize + n) q (opened st path bi (bi.offset + bi.headerSize + n)) = x
    obtain ⟨o, st1⟩ := x
    have hrun := runProg_expand (k := k) hd hin hn hx
    cases o with
    | ok vs =>
      rw [hrun] at hr
      exact ⟨vs, st1, hn, rfl, hr⟩
    | err e =>
      exfalso
      obtain ⟨e', hk⟩ := hk e
      rw [hrun] at hr
      simp only at hr
      rw [hk] at hr
      cases hr
    | panic => rw [hrun] at hr; cases hr
    | hang => rw [hrun] at hr; cases hr
  · exfalso
    have e1 : (tryM (liftP (expandStart BoxMap.std d bi 0)) : TM S V _) st = (.ok (.error e), { st with pos := p }) := by
      unfold tryM; rw [liftP_run, he]
    rw [runProg, M.bind_ok e1] at hr
    obtain ⟨e', hk⟩ := hk e
    simp only at hr
    rw [hk] at hr
    cases hr
  · exfalso
    have e1 : (tryM (liftP (expandStart BoxMap.std d bi 0)) : TM S V _) st = (.hang, { st with pos := p }) := by
      unfold tryM; rw [liftP_run, he]
    rw [runProg, M.bind_hang e1] at hr
    cases hr

end
end Mp4
