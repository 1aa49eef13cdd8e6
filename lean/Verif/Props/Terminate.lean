import Verif.Lemmas.Fuel
import Verif.Lemmas.Forward
import Verif.Props.Traverse

/-!
# C23: termination of the traversal

The model's `fuel` bounds nesting plus number of boxes in a row.  A run that does not use it up is the run of the code
(`traversal_fuel_irrelevant`); the code does not return if the fuel is used up however much there is (`Diverges`).
-/

namespace Mp4.Props

open Mp4

variable {S P V : Type} {d : Bytes}

/-- A traversal that did not use up its fuel is the same with more fuel. -/
theorem traversal_fuel_irrelevant (h : Handler S P V) {f f' : Nat} (hle : f ≤ f') (p : P) (s : S) (pos : Nat)
    (hh : (traverse d h f p s pos).1 ≠ .hang) : traverse d h f' p s pos = traverse d h f p s pos := by
  unfold traverse readBoxStructure at *
  have e1 : (liftP (seekStartP 0) : TM S V Nat) ⟨pos, s, []⟩ = (.ok 0, ⟨0, s, []⟩) := rfl
  rw [M.bind_ok e1] at hh ⊢
  rw [M.bind_ok e1]
  exact readStructure_mono_le hle _ _ _ _ _ _ _ hh

/-- `ReadBoxStructure` does not return. -/
def Diverges (d : Bytes) (h : Handler S P V) (p : P) (s : S) : Prop := ∀ fuel, (traverse d h fuel p s).1 = .hang

/-- "trun" -/
def tTrun : BoxType := ⟨0x74, 0x72, 0x75, 0x6e⟩

/-- A `trun` box that announces 2^32-1 samples. -/
def AllOnesTrun (d : Bytes) (bi : BoxInfo) : Prop :=
  bi.type = tTrun ∧ (d.drop (bi.offset + bi.headerSize + 4)).take 4 = [0xff#8, 0xff#8, 0xff#8, 0xff#8]

theorem trun_type {t : BoxType} {ctx : Ctx} {bd : BoxDef} (h : BoxMap.std.getBoxDef t ctx = some bd)
    (hn : bd.goName = "Trun") : t = tTrun := by
  have hreg : ∀ r ∈ Cat.registry, r.2.goName = "Trun" → r.1 = tTrun := by decide +kernel
  unfold BoxMap.getBoxDef at h
  split at h
  · next x hx =>
    cases h
    exact hreg _ (ofRegs_mem (defLoop_mem hx)) hn
  · split at h
    · simp only at h
      split at h
      · cases h; exact absurd hn (by decide)
      · cases h
    · cases h

theorem hangs_trun (hd : d.length ≤ maxAlloc) {bi : BoxInfo} (hb : HeaderAt d bi) (h : PayloadHangs d bi) :
    AllOnesTrun d bi := by
  have hp := payload_post hd hb.inside
  unfold PayloadHangs at h
  generalize BoxMap.std.unmarshalAny d bi.type (sub64 bi.size bi.headerSize) bi.ctx (bi.offset + bi.headerSize) = x at h hp
  obtain ⟨o, p⟩ := x
  simp only at h
  subst h
  obtain ⟨⟨bd, h1, h2⟩, h3⟩ := hp
  exact ⟨trun_type h1 h2, h3⟩

/-- the box on which a traversal may hang -/
def Odd (d : Bytes) (bi : BoxInfo) : Prop := ¬ Regular bi ∨ AllOnesTrun d bi

/-- a call for an odd box is recorded -/
def OddCall (d : Bytes) (L : List (Ev V)) : Prop := ∃ parent path bi, Ev.enter parent path bi ∈ L ∧ Odd d bi

theorem OddCall.mono {L L' : List (Ev V)} (h : OddCall d L) (hs : ∀ x ∈ L, x ∈ L') : OddCall d L' := by
  obtain ⟨a, b, c, h1, h2⟩ := h
  exact ⟨a, b, c, hs _ h1, h2⟩

/-- a traversal that is cut off has consumed eight bytes for each unit of fuel -/
theorem tr_fuel (hd : d.length ≤ maxAlloc) {r : Run} {L : List (Ev V)} {o : Out (List V)} (h : Tr d r L o) :
    match r with
    | .row f _ _ _ _ _ pos => o = .hang → OddCall d L ∨ f = 0 ∨ pos + 8 * f ≤ d.length
    | .body f _ bi => HeaderAt d bi → o = .hang →
        OddCall d L ∨ Odd d bi ∨ bi.offset + bi.headerSize + 8 * f ≤ d.length := by
  induction h with
  | fuel => intro _; exact .inr (.inl rfl)
  | over h => intro e; subst e; cases h
  | stop hb h ih => intro e; cases e
  | noEnd hb h ih => intro e; cases e
  | cut hb h ih =>
    intro _
    rcases ih hb.hdr rfl with h | h | h
    · exact .inl (h.mono fun x hx => List.mem_cons_of_mem _ hx)
    · exact .inl ⟨_, _, _, List.mem_cons_self, h⟩
    · have h1 := hb.offset
      have h2 := hb.hdr.hdr
      exact .inr (.inr (by omega))
  | next hb h h' ih ih' =>
    rename_i bi _ _ _ o
    intro e
    have eo : o = .hang := by
      cases o with
      | hang => rfl
      | _ => cases e
    have h1 := hb.offset
    have h2 := hb.hdr.hdr
    have h3 := hb.hdr.inside
    by_cases hreg : Regular bi
    · rcases ih' eo with h | h | h
      · exact .inl (h.mono fun x hx => by simp [hx])
      · exact .inr (.inr (by omega))
      · have h4 := hreg.1
        have h5 := hreg.2
        simp only [U64] at h
        exact .inr (.inr (by omega))
    · exact .inl ⟨_, _, _, List.mem_cons_self, .inl hreg⟩
  | ret => intro _ e; cases e
  | fail => intro _ e; cases e
  | hang h => intro hb _; exact .inr (.inl (.inr (hangs_trun hd hb h)))
  | expand hn h h' ih ih' =>
    intro hb e
    rcases ih' hb e with h | h
    · exact .inl (h.mono fun x hx => by simp [hx])
    · exact .inr h
  | expandErr hn h h' ih ih' =>
    intro hb e
    rcases ih' hb e with h | h
    · exact .inl (h.mono fun x hx => by simp [hx])
    · exact .inr h
  | expandCut hn h ih =>
    intro hb e
    have h1 := (payloadN_bound hd hb.inside hn).1
    rcases ih e with h | h | h
    · exact .inl (h.mono fun x hx => by simp [hx])
    · exact .inr (.inr (by omega))
    · exact .inr (.inr (by omega))

/-- C23 (partial): `ReadBoxStructure` returns, after at most `d.length / 8` nested or successive calls, whatever the
(terminating) handler does, unless it meets a box whose announced size does not cover its header or runs past 2^64,
or a `trun` box announcing 2^32-1 samples.  For such boxes it is false:
`traversal_root_loops`, `traversal_recurses_forever`, `unmarshal_trun_hangs`. -/
theorem traversal_terminates_partial (hd : d.length ≤ 2 ^ 48) (h : Handler S P V) (fuel : Nat) (p : P) (s : S) (pos : Nat)
    (hf : d.length < 8 * fuel)
    (hreg : ∀ parent path bi, .enter parent path bi ∈ (traverse d h fuel p s pos).2.log →
      Regular bi ∧ ¬ AllOnesTrun d bi) :
    (traverse d h fuel p s pos).1 ≠ .hang := by
  intro e
  rcases tr_fuel (show d.length ≤ maxAlloc from hd) (traverse_tr hd h fuel p s pos) e with h | h | h
  · obtain ⟨a, b, c, h1, h2⟩ := h
    rcases h2 with h2 | h2
    · exact h2 (hreg a b c h1).1
    · exact (hreg a b c h1).2 h2
  · omega
  · omega

/-! ### The code does not always return -/

/-- A handler that does nothing. -/
def doNothing : Handler Unit Unit Unit := fun _ => .ret ()

/-- `free` of 16 bytes, then `free` whose 64-bit size is 2^64-16. -/
def loopFile : Bytes := [0, 0, 0, 16, 0x66, 0x72, 0x65, 0x65, 0, 0, 0, 0, 0, 0, 0, 0,
  0, 0, 0, 1, 0x66, 0x72, 0x65, 0x65, 0xff, 0xff, 0xff, 0xff, 0xff, 0xff, 0xff, 0xf0]

theorem bind_hang_fst {σ α β : Type} {x : M σ α} {k : α → M σ β} {s : σ} (h : (x s).1 = .hang) : ((x >>= k) s).1 = .hang := by
  cases hr : x s with
  | mk o s' =>
    rw [hr] at h
    simp only at h
    subst h
    rw [M.bind_hang hr]

/-- C23 is false: on this file of 32 bytes `ReadBoxStructure` never returns, even if the handler does nothing.  The second
box ends at offset 2^64, that is, 0. -/
theorem traversal_root_loops : Diverges loopFile doNothing () () := by
  have h0 : readBoxInfo loopFile 0 = (.ok ⟨0, 16, 8, ⟨0x66, 0x72, 0x65, 0x65⟩, false, {}⟩, 8) := by decide +kernel
  have h1 : readBoxInfo loopFile 16 = (.ok ⟨16, 2 ^ 64 - 16, 16, ⟨0x66, 0x72, 0x65, 0x65⟩, false, {}⟩, 32) := by
    decide +kernel
  have hd : loopFile.length ≤ maxAlloc := by decide
  have key : ∀ f total (st : TSt Unit Unit), st.pos = 0 ∨ st.pos = 16 →
      (readStructure BoxMap.std loopFile doNothing f none total true [] {} () st).1 = .hang := by
    intro f
    induction f with
    | zero => intro _ _ _; rfl
    | succ f ih =>
      intro total st hst
      have step : ∀ (bi : BoxInfo) p, readBoxInfo loopFile st.pos = (.ok bi, p) → bi.ctx = {} →
          bi.offset + bi.headerSize ≤ loopFile.length → bi.type = ⟨0x66, 0x72, 0x65, 0x65⟩ →
          ((bi.offset + bi.size) % U64 = 0 ∨ (bi.offset + bi.size) % U64 = 16) →
          (readStructure BoxMap.std loopFile doNothing (f + 1) none total true [] {} () st).1 = .hang := by
        intro bi p he hc hin ht hend
        have hbi : { bi with ctx := {} } = bi := by cases bi; simp only at hc; rw [hc]
        have hf := fromInternal_run (h := doNothing)
          (rec := fun par total path ctx p => readStructure BoxMap.std loopFile doNothing f (some par) total false path ctx p)
          hd (parent := none) (p := ()) (st := { st with pos := p }) hin
          (checkFtyp_skip (path := []) (bi := bi) (.inr (by rw [ht]; decide)) _)
          (checkKeys_skip (bi := bi) (by rw [ht]; decide) _) rfl rfl
        simp only at hf
        rw [if_pos (by omega)] at hf
        rw [← hbi] at hf
        rw [readStructure_step (.inl rfl) he (.inl rfl) hf]
        simp only
        have hn : nextCtx {} { bi with ctx := {} } = {} := by
          unfold nextCtx; rw [ht]; rfl
        rw [hn]
        exact bind_hang_fst (ih _ _ hend)
      rcases hst with hst | hst
      · exact step _ _ (by rw [hst]; exact h0) rfl (by decide) rfl (.inr (by decide))
      · exact step _ _ (by rw [hst]; exact h1) rfl (by decide) rfl (.inl (by decide))
  intro fuel
  unfold traverse readBoxStructure
  have e1 : (liftP (seekStartP 0) : TM Unit Unit Nat) ⟨0, (), []⟩ = (.ok 0, ⟨0, (), []⟩) := rfl
  rw [M.bind_ok e1]
  exact key fuel 0 _ (.inl rfl)

/-- `moov` of size 4, again `moov` of size 4, then a box of unknown type `xxxx` whose 64-bit size is 2^64-16. -/
def deepFile : Bytes := [0, 0, 0, 4, 0x6d, 0x6f, 0x6f, 0x76, 0, 0, 0, 4, 0x6d, 0x6f, 0x6f, 0x76,
  0, 0, 0, 1, 0x78, 0x78, 0x78, 0x78, 0xff, 0xff, 0xff, 0xff, 0xff, 0xff, 0xff, 0xf0]

/-- "moov" -/
def tMoov : BoxType := ⟨0x6d, 0x6f, 0x6f, 0x76⟩
/-- "xxxx" -/
def tXxxx : BoxType := ⟨0x78, 0x78, 0x78, 0x78⟩

/-- C23 is false also in that calls of the handler may be nested without end: on this file of 32 bytes, with a handler
that expands the boxes of known types, every `Expand` leads to another. -/
theorem traversal_recurses_forever : Diverges deepFile expandSupported () () := by
  have h0 : readBoxInfo deepFile 0 = (.ok ⟨0, 4, 8, tMoov, false, {}⟩, 8) := by decide +kernel
  have h1 : readBoxInfo deepFile 8 = (.ok ⟨8, 4, 8, tMoov, false, {}⟩, 16) := by decide +kernel
  have h2 : readBoxInfo deepFile 16 = (.ok ⟨16, 2 ^ 64 - 16, 16, tXxxx, false, {}⟩, 32) := by decide +kernel
  have hm : BoxMap.std.isSupported tMoov {} = true := by decide +kernel
  have hx : BoxMap.std.isSupported tXxxx {} = false := by decide +kernel
  have hd : deepFile.length ≤ maxAlloc := by decide
  have hpay : ∀ pos, pos = 0 ∨ pos = 8 → PayloadN deepFile ⟨pos, 4, 8, tMoov, false, {}⟩ 0 := by
    have h : ∀ pos, pos = 0 ∨ pos = 8 →
        (match (BoxMap.std.unmarshalAny deepFile tMoov (sub64 4 8) {} (pos + 8)).1 with
          | .ok r => r.2 == 0
          | _ => false) = true := by
      rintro pos (rfl | rfl) <;> decide +kernel
    intro pos hpos
    have := h pos hpos
    unfold PayloadN
    simp only
    cases hr : BoxMap.std.unmarshalAny deepFile tMoov (sub64 4 8) {} (pos + 8) with
    | mk o p =>
      rw [hr] at this
      match o, this with
      | .ok (box, n), this =>
        simp only [beq_iff_eq] at this
        subst this
        exact ⟨box, p, rfl⟩
  have key : ∀ f parent total isRoot path (st : TSt Unit Unit),
      (st.pos = 0 ∧ (isRoot = true ∨ 8 ≤ total)) ∨ (isRoot = false ∧ total = 2 ^ 64 - 4 ∧ (st.pos = 8 ∨ st.pos = 16)) →
      (readStructure BoxMap.std deepFile expandSupported f parent total isRoot path {} () st).1 = .hang := by
    intro f
    induction f with
    | zero => intro _ _ _ _ _ _; rfl
    | succ f ih =>
      intro parent total isRoot path st hst
      have hmoov : ∀ pos, pos = 0 ∨ pos = 8 → st.pos = pos → isRoot = true ∨ 8 ≤ total →
          (readStructure BoxMap.std deepFile expandSupported (f + 1) parent total isRoot path {} () st).1 = .hang := by
        intro pos hpos hp hr
        have he : readBoxInfo deepFile st.pos = (.ok ⟨pos, 4, 8, tMoov, false, {}⟩, pos + 8) := by
          rw [hp]
          rcases hpos with rfl | rfl
          · exact h0
          · exact h1
        have hin : pos + 8 ≤ deepFile.length := by rcases hpos with rfl | rfl <;> decide
        have hprog : expandSupported ⟨(), ⟨pos, 4, 8, tMoov, false, {}⟩, path ++ [tMoov]⟩ =
            .expand () returnErr := by
          unfold expandSupported
          simp only
          rw [if_pos hm]
        have htot : sub64 (add64 pos 4) (pos + 8 + 0) = 2 ^ 64 - 4 := by rcases hpos with rfl | rfl <;> decide
        have ht1 : tMoov ≠ tFtyp := by decide
        have ht2 : tMoov ≠ tKeys := by decide
        let st1 := entered { st with pos := pos + 8 } parent (path ++ [tMoov]) ⟨pos, 4, 8, tMoov, false, {}⟩
        cases hc : readStructure BoxMap.std deepFile expandSupported f (some ⟨pos, 4, 8, tMoov, false, {}⟩)
            (sub64 (add64 pos 4) (pos + 8 + 0)) false (path ++ [tMoov]) (childCtx ⟨pos, 4, 8, tMoov, false, {}⟩) ()
            (opened st1 (path ++ [tMoov]) ⟨pos, 4, 8, tMoov, false, {}⟩ (pos + 8 + 0)) with
        | mk o st2 =>
          have hh := ih (some ⟨pos, 4, 8, tMoov, false, {}⟩) (sub64 (add64 pos 4) (pos + 8 + 0)) false (path ++ [tMoov])
            (opened st1 (path ++ [tMoov]) ⟨pos, 4, 8, tMoov, false, {}⟩ (pos + 8 + 0))
            (.inr ⟨rfl, htot, by unfold opened; rcases hpos with rfl | rfl <;> simp⟩)
          have hcc : childCtx ⟨pos, 4, 8, tMoov, false, {}⟩ = {} := rfl
          rw [hcc] at hc
          rw [hc] at hh
          simp only at hh
          subst hh
          have hrun := runProg_expand hd (path := path ++ [tMoov]) (bi := ⟨pos, 4, 8, tMoov, false, {}⟩)
            (children := fun co p => readStructure BoxMap.std deepFile expandSupported f (some ⟨pos, 4, 8, tMoov, false, {}⟩)
              (sub64 (add64 pos 4) co) false (path ++ [tMoov]) (childCtx ⟨pos, 4, 8, tMoov, false, {}⟩) p)
            (q := ()) (k := returnErr) (st := st1) hin (hpay pos hpos) hc
          have hf := fromInternal_run (h := expandSupported)
            (rec := fun par total path ctx p => readStructure BoxMap.std deepFile expandSupported f (some par) total false path ctx p)
            hd (parent := parent) (p := ()) (st := { st with pos := pos + 8 }) (bi := ⟨pos, 4, 8, tMoov, false, {}⟩) hin
            (checkFtyp_skip (path := path) (.inr ht1) _) (checkKeys_skip ht2 _) rfl
            (o := .hang) (st2 := st2) (by rw [hprog]; exact hrun)
          rw [readStructure_step hr he (hr.imp id (fun h => Nat.le_trans (show (4 : Nat) ≤ 8 by decide) h)) hf]
      rcases hst with ⟨hp, hr⟩ | ⟨hr, ht, hp | hp⟩
      · exact hmoov 0 (.inl rfl) hp hr
      · exact hmoov 8 (.inr rfl) hp (.inr (by omega))
      · have he : readBoxInfo deepFile st.pos = (.ok ⟨16, 2 ^ 64 - 16, 16, tXxxx, false, {}⟩, 32) := by rw [hp]; exact h2
        have hprog : expandSupported ⟨(), ⟨16, 2 ^ 64 - 16, 16, tXxxx, false, {}⟩, path ++ [tXxxx]⟩ = .ret () := by
          unfold expandSupported
          simp only
          rw [if_neg (by rw [hx]; simp)]
        have hf := fromInternal_run (h := expandSupported)
          (rec := fun par total path ctx p => readStructure BoxMap.std deepFile expandSupported f (some par) total false path ctx p)
          hd (parent := parent) (p := ()) (st := { st with pos := 32 }) (bi := ⟨16, 2 ^ 64 - 16, 16, tXxxx, false, {}⟩)
          (by decide) (checkFtyp_skip (path := path) (.inr (by decide)) _) (checkKeys_skip (by decide) _) rfl
          (o := .ok ()) (by rw [hprog]; rfl)
        simp only at hf
        rw [if_pos (by decide)] at hf
        rw [readStructure_step (.inr (by omega)) he (.inr (by simp only; omega)) hf]
        simp only
        refine bind_hang_fst (ih _ _ _ _ _ (.inl ⟨show (16 + (2 ^ 64 - 16)) % U64 = 0 by decide, .inr ?_⟩))
        rw [ht]
        decide
  intro fuel
  unfold traverse readBoxStructure
  have e1 : (liftP (seekStartP 0) : TM Unit Unit Nat) ⟨0, (), []⟩ = (.ok 0, ⟨0, (), []⟩) := rfl
  rw [M.bind_ok e1]
  exact key fuel none 0 true [] _ (.inl ⟨rfl, .inl rfl⟩)

end Mp4.Props
