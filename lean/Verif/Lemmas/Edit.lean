import Verif.Lemmas.Forest
import Verif.Lemmas.Write
import Verif.Props.Forest
import Verif.Props.Reencode
import Verif.Props.WriteRead
import Verif.Spec.Edit

/-!
# Lemmas about `mp4tool edit`
-/

namespace Mp4

open Mp4.Edit

section
variable {d : Bytes}

/-! ## the calls of the writer -/

theorem runOps_append_inv {F : Faults} {a b : List WOp} {s s2 : WrSt} {r : List (Option BoxInfo)}
    (h : runOps F (a ++ b) s = (.ok r, s2)) :
    ∃ r1 s1 r2, runOps F a s = (.ok r1, s1) ∧ runOps F b s1 = (.ok r2, s2) := by
  induction a generalizing s r with
  | nil => exact ⟨[], s, r, rfl, h⟩
  | cons o a ih =>
    simp only [List.cons_append, runOps] at h
    obtain ⟨x, s', e1, e2⟩ := bind_ok_inv h
    obtain ⟨y, s'', e3, e4⟩ := bind_ok_inv e2
    cases e4
    obtain ⟨r1, s1, r2, h1, h2⟩ := ih e3
    refine ⟨x :: r1, s1, r2, ?_, h2⟩
    simp only [runOps]
    rw [M.bind_ok e1, M.bind_ok h1]
    rfl

theorem runOps_cons_inv {F : Faults} {o : WOp} {os : List WOp} {s s2 : WrSt} {r : List (Option BoxInfo)}
    (h : runOps F (o :: os) s = (.ok r, s2)) : ∃ x s1 r2, o.run F s = (.ok x, s1) ∧ runOps F os s1 = (.ok r2, s2) := by
  simp only [runOps] at h
  obtain ⟨x, s', e1, e2⟩ := bind_ok_inv h
  obtain ⟨y, s'', e3, e4⟩ := bind_ok_inv e2
  cases e4
  exact ⟨x, s', y, e1, e3⟩

theorem call_run {path : List BoxType} {bi : BoxInfo} {children : Nat → Unit → TM Edit.St Unit (List Unit)} {F : Faults} {o : WOp}
    {k : EProg} {co : Nat} {st : TSt Edit.St Unit} {x : Option BoxInfo} {w : WrSt} (h : o.run F st.user.w = (.ok x, w)) :
    runProg BoxMap.std d path bi children (call F o k) co st =
      runProg BoxMap.std d path bi children k co { st with user := ⟨w, st.user.stop⟩ } := by
  unfold call
  rw [runProg, M.bind_ok (M.get_run st)]
  simp only [h]
  rw [runProg, M.bind_ok (M.modify_run _ st)]

/-- `Expand` after `ReadPayload` -/
theorem expand_again {S P V : Type} (hd : d.length ≤ maxAlloc) {path : List BoxType} {bi : BoxInfo}
    {children : Nat → P → TM S V (List V)} {q : P} {k : Except Err (List V) → Prog S P V} {st : TSt S V}
    (hin : bi.offset + bi.headerSize ≤ d.length) {n : Nat} (hn : PayloadN d bi n) {vs : List V} {st2 : TSt S V}
    (hc : children (bi.offset + bi.headerSize + n) q (opened st path bi (bi.offset + bi.headerSize + n)) = (.ok vs, st2)) :
    runProg BoxMap.std d path bi children (.expand q k) (bi.offset + bi.headerSize + n) st =
      runProg BoxMap.std d path bi children (k (.ok vs)) (bi.offset + bi.headerSize + n)
          ⟨st2.pos, st2.user, st2.log ++ [.closeBox path bi (.ok vs)]⟩ := by
  have he : expandStart BoxMap.std d bi (bi.offset + bi.headerSize + n) st.pos =
      (.ok (bi.offset + bi.headerSize + n), bi.offset + bi.headerSize + n) := by
    obtain ⟨b, p, h1⟩ := hn
    by_cases h0 : bi.offset + bi.headerSize + n = 0
    · rw [h0]
      have e := readPayloadP_ok hd hin st.pos
      rw [h1] at e
      unfold expandStart
      have hp := payload_post hd hin
      rw [h1] at hp
      have hb := payloadN_bound hd hin ⟨b, p, h1⟩
      rw [if_pos rfl, M.bind_ok e]
      simp only [M.pure_run]
      rw [add64_end hd hb.1, hp.2.1, h0]
    · unfold expandStart
      have hb := (payloadN_bound hd hin ⟨b, p, h1⟩).1
      rw [if_neg h0, M.bind_ok (seekStartP_ok (by simp only [maxAlloc] at hd; omega) _)]
      rfl
  have e1 : (tryM (liftP (expandStart BoxMap.std d bi (bi.offset + bi.headerSize + n))) : TM S V _) st =
      (.ok (.ok (bi.offset + bi.headerSize + n)), { st with pos := bi.offset + bi.headerSize + n }) := by
    unfold tryM; rw [liftP_run, he]
  rw [runProg, M.bind_ok e1]
  simp only
  rw [M.bind_ok (emit_run _ _)]
  have hst : ({ st with pos := bi.offset + bi.headerSize + n, log := st.log ++ [.openBox path bi (bi.offset + bi.headerSize + n)] } : TSt S V) =
      opened st path bi (bi.offset + bi.headerSize + n) := rfl
  simp only [hst]
  have e3 : tryM (children (bi.offset + bi.headerSize + n) q) (opened st path bi (bi.offset + bi.headerSize + n)) =
      (.ok (.ok vs), st2) := by unfold tryM; rw [hc]
  rw [M.bind_ok e3, M.bind_ok (emit_run _ _)]

/-! ## the calls that the command makes -/

/-- what is marshalled for a box -/
def editedBox (d : Bytes) (cfg : Config) (bi : BoxInfo) : BoxDef × SV :=
  match BoxMap.std.unmarshalAny d bi.type (sub64 bi.size bi.headerSize) bi.ctx (bi.offset + bi.headerSize) with
  | (.ok (box, _), _) => (box.bd, (editFields cfg bi.type box).getD [])
  | _ => (Cat.bdFree, [])

/-- the calls -/
def editTree (d : Bytes) (cfg : Config) : Forest → WTree
  | .nil => .nil
  | .leaf bi rest =>
    if exists_ cfg.dropBoxes bi.type.toStr then editTree d cfg rest else .copy d bi (editTree d cfg rest)
  | .node bi _ kids rest =>
    if exists_ cfg.dropBoxes bi.type.toStr then editTree d cfg rest
    else if bi.type = tMdat then .copy d bi (editTree d cfg rest)
    else .box bi (.fields (editedBox d cfg bi).1 bi.ctx (editedBox d cfg bi).2 (editTree d cfg kids)) (editTree d cfg rest)

/-- leaves are of unknown type, or `mdat`, or dropped -/
def EditLeaves (cfg : Config) : Forest → Prop
  | .nil => True
  | .leaf bi rest =>
    (exists_ cfg.dropBoxes bi.type.toStr = true ∨ bi.type = tMdat ∨ BoxMap.std.isSupported bi.type bi.ctx = false) ∧
    EditLeaves cfg rest
  | .node bi _ kids rest =>
    (exists_ cfg.dropBoxes bi.type.toStr = false → bi.type ≠ tMdat → EditLeaves cfg kids) ∧ EditLeaves cfg rest

theorem std_tfdt (ctx : Ctx) : BoxMap.std.getBoxDef tTfdt ctx = some Cat.bdTfdt := by
  refine Props.std_def (by decide +kernel) ?_
  unfold Cat.allDefs
  simp only [List.forall_mem_cons]
  repeat' apply And.intro
  all_goals first
    | (intro _; rfl)
    | (intro _; trivial)
    | (intro h; exact absurd h (by decide))
    | (intro x hx; exact absurd hx (by simp))

/-- the payload of a box, and what `mp4tool edit` makes of it -/
theorem editedBox_of {cfg : Config} {bi : BoxInfo} {n : Nat} (hn : PayloadN d bi n) : ∃ box p,
    BoxMap.std.unmarshalAny d bi.type (sub64 bi.size bi.headerSize) bi.ctx (bi.offset + bi.headerSize) = (.ok (box, n), p) ∧
    BoxMap.std.getBoxDef bi.type bi.ctx = some box.bd ∧
    editFields cfg bi.type box = some (editedBox d cfg bi).2 ∧ box.bd = (editedBox d cfg bi).1 := by
  obtain ⟨box, p, h⟩ := hn
  have hb : BoxMap.std.getBoxDef bi.type bi.ctx = some box.bd := by
    unfold BoxMap.unmarshalAny BoxMap.new at h
    cases hl : BoxMap.std.getBoxDef bi.type bi.ctx with
    | none => rw [hl] at h; cases h
    | some bd =>
      rw [hl] at h
      simp only at h
      split at h <;> cases h
      rfl
  refine ⟨box, p, h, hb, ?_, ?_⟩
  · unfold editedBox
    rw [h]
    simp only
    unfold editFields
    by_cases ht : bi.type = tTfdt
    · rw [if_pos ht]
      rw [ht, std_tfdt] at hb
      have : box.assert "Tfdt" = some box.sv := by
        unfold BoxVal.assert
        rw [← Option.some.inj hb]
        exact if_pos rfl
      rw [this]
      rfl
    · rw [if_neg ht]
      rfl
  · unfold editedBox
    rw [h]

/-- what the traversal does to the writer -/
def EditPost (w : WrSt) (r : Out (List Unit) × TSt Edit.St Unit) : Prop :=
  ∃ vs pos log, r = (.ok vs, ⟨pos, ⟨w, none⟩, log⟩)

theorem edit_run (hd : d.length ≤ maxAlloc) (F : Faults) (cfg : Config) : ∀ (T : Forest) (f : Nat) (parent : Option BoxInfo) (total : Nat)
    (isRoot : Bool) (path : List BoxType) (ctx : Ctx) (st : TSt Edit.St Unit) (rs : List (Option BoxInfo)) (w : WrSt),
    T.WF d isRoot path ctx st.pos total → EditLeaves cfg T → T.count < f → total < U64 →
    st.user.stop = none → runOps F (editTree d cfg T).ops st.user.w = (.ok rs, w) →
    EditPost w (readStructure BoxMap.std d (handler F d cfg) f parent total isRoot path ctx () st) := by
  intro T
  induction T with
  | nil =>
    intro f parent total isRoot path ctx st rs w hwf _ hf ht hs hw
    obtain ⟨f, rfl⟩ : ∃ g, f = g + 1 := ⟨f - 1, by simp only [Forest.count] at hf; omega⟩
    cases hw
    obtain ⟨pos, ⟨w, stop⟩, log⟩ := st
    cases hs
    simp only [Forest.WF] at hwf
    rw [readStructure]
    cases isRoot with
    | true =>
      rw [if_pos rfl] at hwf
      have hi := Props.readBoxInfo_iso d pos (by simp only [maxAlloc] at hd; omega)
      rw [hwf, List.drop_length] at hi
      have hi : ∃ q, readBoxInfo d pos = (.err .eof, q) := by rw [hwf]; exact hi
      obtain ⟨q, hi⟩ := hi
      have e1 : (tryM (liftP (readBoxInfo d)) : TM Edit.St Unit _) ⟨pos, ⟨w, none⟩, log⟩ =
          (.ok (.error .eof), ⟨q, ⟨w, none⟩, log⟩) := by
        unfold tryM; rw [liftP_run, hi]
      rw [if_pos (.inl rfl), M.bind_ok e1]
      exact ⟨[], q, log, rfl⟩
    | false =>
      rw [if_neg (by simp)] at hwf
      rw [if_neg (by simp [smallHeaderSize]; omega), if_neg (by
        rintro ⟨h1, h2⟩
        rcases hwf with h | h
        · exact h1 h
        · exact h2 h.2)]
      exact ⟨[], pos, log, rfl⟩
  | leaf bi rest ih =>
    intro f parent total isRoot path ctx st rs w hwf hl hf ht hs hw
    obtain ⟨f, rfl⟩ : ∃ g, f = g + 1 := ⟨f - 1, by simp only [Forest.count] at hf; omega⟩
    simp only [Forest.count] at hf
    obtain ⟨hp, hwf⟩ := hwf
    obtain ⟨hk, hl⟩ := hl
    obtain ⟨hwf', hlt⟩ := rest_wf hp.inParent ht hwf
    obtain ⟨pos, ⟨w0, stop⟩, log⟩ := st
    cases hs
    simp only [editTree] at hw
    by_cases hx : exists_ cfg.dropBoxes bi.type.toStr = true
    · rw [if_pos hx] at hw
      have hr : runProg BoxMap.std d (path ++ [bi.type]) bi
          (fun co p => readStructure BoxMap.std d (handler F d cfg) f (some bi) (sub64 (add64 bi.offset bi.size) co) false
            (path ++ [bi.type]) (childCtx bi) p)
          (handler F d cfg ⟨(), bi, path ++ [bi.type]⟩) 0
          (entered ⟨pos + bi.headerSize, ⟨w0, none⟩, log⟩ parent (path ++ [bi.type]) bi) =
            (.ok (), ⟨bi.offset + bi.headerSize, ⟨w0, none⟩, log ++ [.enter parent (path ++ [bi.type]) bi]⟩) := by
        have hq : handler F d cfg ⟨(), bi, path ++ [bi.type]⟩ = .ret () := by
          unfold handler
          rw [if_pos hx]
        rw [hq, runProg]
        rfl
      obtain ⟨vs, q, L, e⟩ := ih f parent (sub64 total bi.size) isRoot path (nextCtx ctx bi)
        ⟨pos + bi.size, ⟨w0, none⟩, _⟩ rs w hwf' hl (by omega) hlt rfl hw
      exact ⟨_, _, _, (placed_step hd hp hr).trans (map_ok (f := fun vs => _ :: vs) e)⟩
    · rw [if_neg hx] at hw
      obtain ⟨x, s1, r2, h1, h2⟩ := runOps_cons_inv hw
      have hr : runProg BoxMap.std d (path ++ [bi.type]) bi
          (fun co p => readStructure BoxMap.std d (handler F d cfg) f (some bi) (sub64 (add64 bi.offset bi.size) co) false
            (path ++ [bi.type]) (childCtx bi) p)
          (handler F d cfg ⟨(), bi, path ++ [bi.type]⟩) 0
          (entered ⟨pos + bi.headerSize, ⟨w0, none⟩, log⟩ parent (path ++ [bi.type]) bi) =
            (.ok (), ⟨bi.offset + bi.size, ⟨s1, none⟩, log ++ [.enter parent (path ++ [bi.type]) bi]⟩) := by
        have hq : handler F d cfg ⟨(), bi, path ++ [bi.type]⟩ =
            call F (.copy d bi) (.stream (fun _ => bi.offset + bi.size) fun _ => .ret ()) := by
          unfold handler
          rw [if_neg hx, if_pos (by
            rcases hk with h | h | h
            · exact absurd h hx
            · simp [h]
            · simp [h])]
        rw [hq, call_run (x := x) (w := s1) h1]
        rfl
      obtain ⟨vs, q, L, e⟩ := ih f parent (sub64 total bi.size) isRoot path (nextCtx ctx bi)
        ⟨pos + bi.size, ⟨s1, none⟩, _⟩ _ w hwf' hl (by omega) hlt rfl h2
      exact ⟨_, _, _, (placed_step hd hp hr).trans (map_ok (f := fun vs => _ :: vs) e)⟩
  | node bi n kids rest ihk ih =>
    intro f parent total isRoot path ctx st rs w hwf hl hf ht hs hw
    obtain ⟨f, rfl⟩ : ∃ g, f = g + 1 := ⟨f - 1, by simp only [Forest.count] at hf; omega⟩
    simp only [Forest.count] at hf
    obtain ⟨hp, hn, hwk, hwf⟩ := hwf
    obtain ⟨hk, hl⟩ := hl
    obtain ⟨hwf', hlt⟩ := rest_wf hp.inParent ht hwf
    obtain ⟨pos, ⟨w0, stop⟩, log⟩ := st
    cases hs
    simp only [editTree] at hw
    by_cases hx : exists_ cfg.dropBoxes bi.type.toStr = true
    · rw [if_pos hx] at hw
      have hr : runProg BoxMap.std d (path ++ [bi.type]) bi
          (fun co p => readStructure BoxMap.std d (handler F d cfg) f (some bi) (sub64 (add64 bi.offset bi.size) co) false
            (path ++ [bi.type]) (childCtx bi) p)
          (handler F d cfg ⟨(), bi, path ++ [bi.type]⟩) 0
          (entered ⟨pos + bi.headerSize, ⟨w0, none⟩, log⟩ parent (path ++ [bi.type]) bi) =
            (.ok (), ⟨bi.offset + bi.headerSize, ⟨w0, none⟩, log ++ [.enter parent (path ++ [bi.type]) bi]⟩) := by
        have hq : handler F d cfg ⟨(), bi, path ++ [bi.type]⟩ = .ret () := by
          unfold handler
          rw [if_pos hx]
        rw [hq, runProg]
        rfl
      obtain ⟨vs, q, L, e⟩ := ih f parent (sub64 total bi.size) isRoot path (nextCtx ctx bi)
        ⟨pos + bi.size, ⟨w0, none⟩, _⟩ rs w hwf' hl (by omega) hlt rfl hw
      exact ⟨_, _, _, (placed_step hd hp hr).trans (map_ok (f := fun vs => _ :: vs) e)⟩
    rw [if_neg hx] at hw
    by_cases hm : bi.type = tMdat
    · rw [if_pos hm] at hw
      obtain ⟨x, s1, r2, h1, h2⟩ := runOps_cons_inv hw
      have hr : runProg BoxMap.std d (path ++ [bi.type]) bi
          (fun co p => readStructure BoxMap.std d (handler F d cfg) f (some bi) (sub64 (add64 bi.offset bi.size) co) false
            (path ++ [bi.type]) (childCtx bi) p)
          (handler F d cfg ⟨(), bi, path ++ [bi.type]⟩) 0
          (entered ⟨pos + bi.headerSize, ⟨w0, none⟩, log⟩ parent (path ++ [bi.type]) bi) =
            (.ok (), ⟨bi.offset + bi.size, ⟨s1, none⟩, log ++ [.enter parent (path ++ [bi.type]) bi]⟩) := by
        have hq : handler F d cfg ⟨(), bi, path ++ [bi.type]⟩ =
            call F (.copy d bi) (.stream (fun _ => bi.offset + bi.size) fun _ => .ret ()) := by
          unfold handler
          rw [if_neg hx, if_pos (by simp [hm])]
        rw [hq, call_run (x := x) (w := s1) h1]
        rfl
      obtain ⟨vs, q, L, e⟩ := ih f parent (sub64 total bi.size) isRoot path (nextCtx ctx bi)
        ⟨pos + bi.size, ⟨s1, none⟩, _⟩ _ w hwf' hl (by omega) hlt rfl h2
      exact ⟨_, _, _, (placed_step hd hp hr).trans (map_ok (f := fun vs => _ :: vs) e)⟩
    · rw [if_neg hm] at hw
      obtain ⟨x, s1, r2, h1, h2⟩ := runOps_cons_inv hw
      obtain ⟨r3, s4, r4, h3, h4⟩ := runOps_append_inv h2
      obtain ⟨x2, s2, r5, h5, h6⟩ := runOps_cons_inv h3
      obtain ⟨x3, s5, r6, h7, h8⟩ := runOps_cons_inv h4
      obtain ⟨hh, hb⟩ := placed_header hd hp
      have hin : bi.offset + bi.headerSize + n ≤ bi.offset + bi.size ∧ bi.offset + bi.size ≤ d.length := by
        refine ⟨?_, by rw [hp.offset]; exact hp.inFile⟩
        have h1 := payloadN_bound hd hb.inside hn
        have h2 := hp.whole
        have h3 := hb.lt
        have h4 : sub64 bi.size bi.headerSize = bi.size - bi.headerSize := by
          unfold sub64
          simp only [U64] at *
          omega
        omega
      have htot : sub64 (add64 bi.offset bi.size) (bi.offset + bi.headerSize + n) = bi.size - bi.headerSize - n := by
        unfold sub64 add64
        simp only [maxAlloc, U64] at *
        omega
      obtain ⟨box, p, hu, hbd, hsv, hbd'⟩ := editedBox_of (cfg := cfg) hn
      obtain ⟨vs1, q1, L1, e1⟩ := ihk f (some bi)
        (sub64 (add64 bi.offset bi.size) (bi.offset + bi.headerSize + n)) false (path ++ [bi.type]) (childCtx bi)
        ⟨bi.offset + bi.headerSize + n, ⟨s2, none⟩,
          log ++ [.enter parent (path ++ [bi.type]) bi] ++
            [.openBox (path ++ [bi.type]) bi (bi.offset + bi.headerSize + n)]⟩ r5 s4
        (by
          rw [htot]
          simp only
          rw [hp.offset]
          exact hwk) (hk (by simpa using hx) hm) (by omega) (by unfold sub64; exact Nat.mod_lt _ (by decide)) rfl h6
      have hr : runProg BoxMap.std d (path ++ [bi.type]) bi
          (fun co p => readStructure BoxMap.std d (handler F d cfg) f (some bi) (sub64 (add64 bi.offset bi.size) co) false
            (path ++ [bi.type]) (childCtx bi) p)
          (handler F d cfg ⟨(), bi, path ++ [bi.type]⟩) 0
          (entered ⟨pos + bi.headerSize, ⟨w0, none⟩, log⟩ parent (path ++ [bi.type]) bi) =
            (.ok (), ⟨q1, ⟨s5, none⟩, L1 ++ [.closeBox (path ++ [bi.type]) bi (.ok vs1)]⟩) := by
        have hq : handler F d cfg ⟨(), bi, path ++ [bi.type]⟩ = call F (.start bi) (.readPayload (withPayload F cfg bi)) := by
          unfold handler
          rw [if_neg hx, if_neg (by simp [hm, Props.payloadN_supported hn])]
        rw [hq, call_run (x := x) (w := s1) h1]
        have e2 : ∀ st : TSt Edit.St Unit, (tryM (liftP (readPayloadP BoxMap.std d bi)) : TM Edit.St Unit _) st =
            (.ok (.ok (box, n)), { st with pos := p }) := by
          intro st
          unfold tryM; rw [liftP_run, readPayloadP_ok hd hb.inside, hu]
        rw [runProg, M.bind_ok (e2 _)]
        simp only [withPayload, hsv]
        unfold Edit.finish
        rw [add64_end hd (by omega), hbd', call_run (x := x2) (w := s2) h5]
        rw [expand_again hd hb.inside hn (vs := vs1) (st2 := ⟨q1, ⟨s4, none⟩, L1⟩) e1]
        simp only
        rw [call_run (x := x3) (w := s5) h7]
        rfl
      obtain ⟨vs, q, L, e⟩ := ih f parent (sub64 total bi.size) isRoot path (nextCtx ctx bi)
        ⟨pos + bi.size, ⟨s5, none⟩, _⟩ _ w hwf' hl (by omega) hlt rfl h8
      exact ⟨_, _, _, (placed_step hd hp hr).trans (map_ok (f := fun vs => _ :: vs) e)⟩

end
end Mp4
