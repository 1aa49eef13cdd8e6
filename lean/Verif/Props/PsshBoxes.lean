import Verif.Spec.PsshBoxes
import Verif.Props.Summary
import Verif.Props.ExtractBoxes

/-!
# C90: what `mp4tool psshdump` shows of a written file
-/

namespace Mp4.PsshBoxes

open Mp4 Mp4.Tool Mp4.Props

variable {d : Bytes}

theorem pssh_known (ctx : Ctx) : BoxMap.std.isSupported tPssh ctx = true := by
  unfold BoxMap.isSupported
  rw [std_pssh]
  rfl

theorem asked_iff (m t : BoxType) (hm : m = tMoov ∨ m = tMoof) : Asked psshPaths ([m] ++ [t]) ↔ t = tPssh := by
  constructor
  · intro h
    rcases asked_pssh h with h | h <;> simp at h <;> exact h.2
  · rintro rfl
    refine ⟨by rcases hm with rfl | rfl <;> decide, [m, tPssh], ?_, (hasPattern_exact (psshPaths_plain _ ?_)).2 rfl⟩ <;> rcases hm with rfl | rfl <;> simp [psshPaths]

theorem boxes_row : ∀ (K : Boxes) (ctx : Ctx) (pos : Nat) (parent : Option BoxInfo) (m : BoxType), (m = tMoov ∨ m = tMoof) → K.Unknown false ctx →
    (((K.forest false ctx pos).boxes parent [m]).filter fun x => decide (Asked psshPaths x.2.1)).map (·.2.2) = (psshIn K ctx pos).map (·.1)
  | .nil, _, _, _, _, _, _ => rfl
  | .raw start p rest, ctx, pos, parent, m, hm, hu => by
    simp only [Boxes.forest, Forest.boxes, psshIn]
    rw [List.filter_cons_of_neg, boxes_row rest _ _ _ m hm hu.2]
    simp only [decide_eq_true_eq]
    intro hc
    have := (asked_iff m _ hm).1 hc
    have hk := pssh_known ctx
    rw [← this] at hk
    exact absurd (hk.symm.trans hu.1) (by simp)
  | .box start bd sv kids rest, ctx, pos, parent, m, hm, hu => by
    simp only [Boxes.forest, Forest.boxes, psshIn]
    rw [List.filter_cons, List.filter_append]
    generalize hbi : Boxes.info start pos ((Form.of start).len + ((bitsBytes (Spec.layout bd (Boxes.ownCtx false ctx start.type sv) sv)).length +
        (kids.ser false (Boxes.kidsCtx false ctx start sv)).length)) (Boxes.ownCtx false ctx start.type sv) = bi
    have ht : bi.type = start.type := by rw [← hbi]; rfl
    have hr := boxes_row rest (Boxes.restCtx false ctx start sv) (pos + ((Form.of start).len +
      ((bitsBytes (Spec.layout bd (Boxes.ownCtx false ctx start.type sv) sv)).length +
        (kids.ser false (Boxes.kidsCtx false ctx start sv)).length))) parent m hm hu.2
    rw [none_asked (fun h => by have := askedBelow_pssh (by simp) h; simp at this), List.nil_append, ht]
    by_cases h : start.type = tPssh
    · have hd : decide (Asked psshPaths ([m] ++ [start.type])) = true := decide_eq_true ((asked_iff m _ hm).2 h)
      rw [if_pos hd, if_pos h, List.map_cons, hr]
      rfl
    · have hd : decide (Asked psshPaths ([m] ++ [start.type])) = false := decide_eq_false fun hc => h ((asked_iff m _ hm).1 hc)
      rw [if_neg (by rw [hd]; simp), if_neg h, hr]
      rfl

theorem not_asked_root (t : BoxType) : ¬ Asked psshPaths ([] ++ [t]) := by
  intro h
  rcases asked_pssh h with h | h <;> simp at h

theorem boxes_root : ∀ (B : Boxes) (ctx : Ctx) (pos : Nat), B.Unknown true ctx →
    askedBoxes psshPaths (B.forest true ctx pos) = (psshOf B ctx pos).map (·.1)
  | .nil, _, _, _ => rfl
  | .raw start p rest, ctx, pos, hu => by
    have hr := boxes_root rest ctx (pos + ((Form.of start).len + p.length)) hu.2
    unfold askedBoxes at hr ⊢
    simp only [Boxes.forest, Forest.boxes, psshOf]
    rw [List.filter_cons_of_neg, hr]
    simp only [decide_eq_true_eq]
    exact not_asked_root _
  | .box start bd sv kids rest, ctx, pos, hu => by
    have hr := boxes_root rest (Boxes.restCtx true ctx start sv) (pos + ((Form.of start).len +
      ((bitsBytes (Spec.layout bd (Boxes.ownCtx true ctx start.type sv) sv)).length +
        (kids.ser false (Boxes.kidsCtx true ctx start sv)).length))) hu.2
    unfold askedBoxes at hr ⊢
    simp only [Boxes.forest, Forest.boxes, psshOf]
    generalize hbi : Boxes.info start pos ((Form.of start).len + ((bitsBytes (Spec.layout bd (Boxes.ownCtx true ctx start.type sv) sv)).length +
        (kids.ser false (Boxes.kidsCtx true ctx start sv)).length)) (Boxes.ownCtx true ctx start.type sv) = bi
    have ht : bi.type = start.type := by rw [← hbi]; rfl
    rw [List.filter_cons_of_neg (by simp only [decide_eq_true_eq]; exact not_asked_root _), List.filter_append, ht, List.map_append, List.map_append, hr]
    refine congrArg (· ++ _) ?_
    by_cases h : start.type = tMoov ∨ start.type = tMoof
    · rw [if_pos h]
      exact boxes_row kids _ _ _ _ h hu.1
    · rw [if_neg h, none_asked (fun hc => by have := askedBelow_pssh (by simp) hc; simp at this; exact h this)]
      rfl

/-- the bytes of the boxes -/
def Lies (d : Bytes) (y : BoxInfo × Bytes × SV) : Prop :=
  rawBytes d y.1 = y.2.1 ∧ ∃ x : PsshBox, x.WF ∧ y.2.2 = x.sv ∧ x.In d y.1

theorem layout_bits {x : PsshBox} (hx : x.WF) {ctx : Ctx} {size : Nat} (h : Spec.fitsIn Cat.bdPssh ctx x.sv size = true) :
    bytesBits (bitsBytes (Spec.layout Cat.bdPssh ctx x.sv)) = x.bits := by
  obtain ⟨p, h1, h2, -⟩ := pssh_encodes x hx ctx
  have := (h2 []).symm.trans (marshalBox_layoutIn h [])
  simp only [List.nil_append, Prod.mk.injEq] at this
  rw [← this.2, h1]

theorem lies_row : ∀ (K : Boxes) (isLast : Bool) (ctx : Ctx) (pre post : Bytes), K.Ok false isLast ctx → Proper K →
    d = pre ++ K.ser false ctx ++ post → ∀ y ∈ psshIn K ctx pre.length, Lies d y
  | .nil, _, _, _, _, _, _, _, y, hy => by cases hy
  | .raw start p rest, isLast, ctx, pre, post, hok, hp, h, y, hy => by
    have hl := Form.header_length (Form.of start) start.type ((Form.of start).len + p.length)
    simp only [Boxes.ser] at h
    refine lies_row rest isLast ctx (pre ++ ((Form.of start).header start.type ((Form.of start).len + p.length) ++ p)) post hok.2.2.2.2 hp (by rw [h]; simp) y ?_
    rw [List.length_append, List.length_append, hl]
    exact hy
  | .box start bd sv kids rest, isLast, ctx, pre, post, hok, hp, h, y, hy => by
    obtain ⟨-, -, hg, hfit, -, hr⟩ := hok
    simp only [Boxes.ser] at h
    simp only [psshIn] at hy
    rcases List.mem_append.1 hy with hy | hy
    · by_cases ht : start.type = tPssh
      · rw [if_pos ht] at hy
        rw [List.mem_singleton] at hy
        subst hy
        obtain ⟨hk, x, hx, rfl⟩ := hp.1 ht
        subst hk
        have hbd : bd = Cat.bdPssh := by
          rw [ht, std_pssh] at hg
          cases hg; rfl
        subst hbd
        have hbits := layout_bits hx hfit
        simp only [Boxes.ser, List.append_nil, List.length_nil, Nat.add_zero] at h hbits ⊢
        generalize bitsBytes (Spec.layout Cat.bdPssh (Boxes.ownCtx false ctx start.type x.sv) x.sv) = f at *
        have hl := Form.header_length (Form.of start) start.type ((Form.of start).len + f.length)
        refine ⟨?_, x, hx, rfl, ?_⟩
        · exact ExtractBoxes.raw_at (pre := pre) (post := rest.ser false (Boxes.restCtx false ctx start x.sv) ++ post) (by rw [h]; simp) rfl
            (by rw [List.length_append, hl]; rfl)
        · unfold PsshBox.In
          rw [← hbits]
          refine congrArg _ ?_
          show (d.drop (pre.length + (Form.of start).len)).take ((Form.of start).len + f.length - (Form.of start).len) = f
          have e : d = (pre ++ (Form.of start).header start.type ((Form.of start).len + f.length)) ++ (f ++ (rest.ser false (Boxes.restCtx false ctx start x.sv) ++ post)) := by
            rw [h]; simp
          rw [e, List.drop_left' (by rw [List.length_append, hl]), Nat.add_sub_cancel_left, List.take_left' rfl]
      · rw [if_neg ht] at hy; cases hy
    · generalize hf : bitsBytes (Spec.layout bd (Boxes.ownCtx false ctx start.type sv) sv) = f at *
      have hl := Form.header_length (Form.of start) start.type ((Form.of start).len + (f ++ kids.ser false (Boxes.kidsCtx false ctx start sv)).length)
      refine lies_row rest isLast _ (pre ++ ((Form.of start).header start.type ((Form.of start).len + (f ++ kids.ser false (Boxes.kidsCtx false ctx start sv)).length) ++
        (f ++ kids.ser false (Boxes.kidsCtx false ctx start sv)))) post hr hp.2.2 (by rw [h]; simp) y ?_
      rw [List.length_append, List.length_append, hl, List.length_append]
      exact hy

theorem lies_root : ∀ (B : Boxes) (isLast : Bool) (ctx : Ctx) (pre post : Bytes), B.Ok true isLast ctx → Proper B →
    d = pre ++ B.ser true ctx ++ post → ∀ y ∈ psshOf B ctx pre.length, Lies d y
  | .nil, _, _, _, _, _, _, _, y, hy => by cases hy
  | .raw start p rest, isLast, ctx, pre, post, hok, hp, h, y, hy => by
    have hl := Form.header_length (Form.of start) start.type ((Form.of start).len + p.length)
    simp only [Boxes.ser] at h
    refine lies_root rest isLast ctx (pre ++ ((Form.of start).header start.type ((Form.of start).len + p.length) ++ p)) post hok.2.2.2.2 hp (by rw [h]; simp) y ?_
    rw [List.length_append, List.length_append, hl]
    exact hy
  | .box start bd sv kids rest, isLast, ctx, pre, post, hok, hp, h, y, hy => by
    obtain ⟨-, -, hg, hfit, hk, hr⟩ := hok
    simp only [Boxes.ser] at h
    simp only [psshOf] at hy
    generalize hf : bitsBytes (Spec.layout bd (Boxes.ownCtx true ctx start.type sv) sv) = f at *
    have hl := Form.header_length (Form.of start) start.type ((Form.of start).len + (f ++ kids.ser false (Boxes.kidsCtx true ctx start sv)).length)
    rcases List.mem_append.1 hy with hy | hy
    · by_cases ht : start.type = tMoov ∨ start.type = tMoof
      · rw [if_pos ht] at hy
        refine lies_row kids _ _ (pre ++ (Form.of start).header start.type ((Form.of start).len + (f ++ kids.ser false (Boxes.kidsCtx true ctx start sv)).length) ++ f)
          (rest.ser true (Boxes.restCtx true ctx start sv) ++ post) hk hp.2.1 (by rw [h]; simp) y ?_
        rw [List.length_append, List.length_append, hl]
        exact hy
      · rw [if_neg ht] at hy; cases hy
    · refine lies_root rest isLast _ (pre ++ ((Form.of start).header start.type ((Form.of start).len + (f ++ kids.ser false (Boxes.kidsCtx true ctx start sv)).length) ++
        (f ++ kids.ser false (Boxes.kidsCtx true ctx start sv)))) post hr hp.2.2 (by rw [h]; simp) y ?_
      rw [List.length_append, List.length_append, hl, List.length_append]
      exact hy

theorem goBytes_inj {a b : Bytes} (h : Spec.goBytes a = Spec.goBytes b) : a = b := by
  unfold Spec.goBytes at h
  refine (List.map_inj_right ?_).1 h
  intro x y e
  simp only [Val.uint.injEq] at e
  exact BitVec.eq_of_toNat_eq e

theorem sv_inj {x y : PsshBox} (h : x.sv = y.sv) : x.version = y.version ∧ x.f0 = y.f0 ∧ x.f1 = y.f1 ∧ x.f2 = y.f2 ∧ x.system = y.system ∧ x.data.length = y.data.length := by
  simp only [PsshBox.sv, Spec.fullBox, List.cons.injEq, Prod.mk.injEq, true_and, and_true, Val.struct.injEq, Val.uint.injEq, Val.arr.injEq, Val.int.injEq] at h
  obtain ⟨⟨h1, h2, h3, h4⟩, h5, -, -, h6, -⟩ := h
  exact ⟨h1, h2, h3, h4, goBytes_inj h5, by omega⟩

theorem same_sv (hd : d.length ≤ 2 ^ 48) {bi : BoxInfo} (hin : bi.offset + bi.size ≤ d.length) (hh : bi.headerSize ≤ bi.size) {x y : PsshBox} (hx : x.WF) (hy : y.WF)
    (h1 : x.In d bi) (h2 : y.In d bi) : x.sv = y.sv := by
  have a := encodes_any (pssh_encodes x hx {}) (std_pssh {}) hd (pos := bi.offset + bi.headerSize) (n := bi.size - bi.headerSize) (by omega) h1
  have b := encodes_any (pssh_encodes y hy {}) (std_pssh {}) hd (pos := bi.offset + bi.headerSize) (n := bi.size - bi.headerSize) (by omega) h2
  rw [a] at b
  simp only [Prod.mk.injEq, Out.ok.injEq, BoxVal.mk.injEq, true_and, and_true] at b
  exact b

theorem entries (hd : d.length ≤ 2 ^ 48) : ∀ (l : List (BoxInfo × Bytes × SV)) (i : Nat) (es : List PsshEntry),
    (∀ y ∈ l, Lies d y) → (∀ y ∈ l, y.1.offset + y.1.size ≤ d.length ∧ y.1.headerSize ≤ y.1.size) → Listing d i (l.map (·.1)) es → Entries i l es
  | [], i, [], _, _, _ => trivial
  | [], i, e :: es, _, _, h => h.elim
  | y :: l, i, [], _, _, h => h.elim
  | y :: l, i, e :: es, hl, hin, h => by
    obtain ⟨⟨x', hw, hI, hs⟩, h⟩ := h
    obtain ⟨hr, x, hx, hsv, hxI⟩ := hl y List.mem_cons_self
    obtain ⟨i1, i2⟩ := hin y List.mem_cons_self
    obtain ⟨e1, e2, e3, e4, e5, e6⟩ := sv_inj (same_sv hd i1 i2 hx hw hxI hI)
    refine ⟨⟨hs.index, hs.offset, hs.size, by rw [hs.raw, hr], x, hsv, ?_, ?_, ?_, ?_⟩,
      entries hd l (i + 1) es (fun z hz => hl z (List.mem_cons_of_mem _ hz)) (fun z hz => hin z (List.mem_cons_of_mem _ hz)) h⟩
    · rw [hs.version, e1]
    · rw [hs.flags, e2, e3, e4]
    · rw [hs.system, e5]
    · rw [hs.data, e6]

end Mp4.PsshBoxes

namespace Mp4.Props

open Mp4 Mp4.Tool Mp4.PsshBoxes

/-- **C90** — Every row of boxes as in C29, written by `StartBox`, `Marshal` and `EndBox`: `mp4tool psshdump` of the file succeeds and prints one entry for each `pssh` box in a
`moov` or `moof` box of the root, in order: number, true offset and size, the version, flags, system identifier and size of the data that were given to `Marshal`,
and a Base 64 text that decodes to the bytes of the box as it was written. -/
theorem psshdump_written (B : Boxes) (hok : B.Ok true true {}) (hraw : B.Unknown true {}) (hlen : (B.ser true {}).length ≤ 2 ^ 48) (hp : Proper B)
    (fuel : Nat) (hf : (B.forest true {} 0).count < fuel) (pos : Nat) :
    ∃ rs s', runOps noFaults (B.tree true {}).ops (WrSt.new ⟨[], 0, 0⟩) = (.ok rs, s') ∧ s'.stack = [] ∧
      ∃ es p, psshdump BoxMap.std s'.file.data fuel pos = (.ok es, p) ∧ Entries 0 (psshOf B {} 0) es := by
  obtain ⟨rs, s', h1, h2, h3⟩ := writes_boxes B hok hlen
  obtain ⟨hwf, -⟩ := wf_reads B hok hlen
  have hb := boxes_root B {} 0 hraw
  have hl := lies_root (d := B.ser true {}) B true {} [] [] hok hp (by simp)
  have known : ∀ m ctx, m = tMoov ∨ m = tMoof → BoxMap.std.isSupported m ctx = true := by
    rintro m ctx (rfl | rfl) <;> exact plain_known (by decide +kernel) ctx
  have hleaf : ∀ x ∈ leaves [] (B.forest true {} 0), x.1 ≠ [tMoov] ∧ x.1 ≠ [tMoof] := by
    intro x hx
    have u := leaves_raw B true {} 0 [] hraw x hx
    have lst := leaves_last _ _ x hx
    constructor
    · intro e
      rw [e, List.mem_singleton] at lst
      have := known x.2.type x.2.ctx (.inl lst)
      rw [u] at this; cases this
    · intro e
      rw [e, List.mem_singleton] at lst
      have := known x.2.type x.2.ctx (.inr lst)
      rw [u] at this; cases this
  obtain ⟨es, p, he, hlist⟩ := psshdump_lists hlen _ hwf hleaf (by
    intro bi hbi
    rw [hb] at hbi
    obtain ⟨y, hy, rfl⟩ := List.mem_map.1 hbi
    obtain ⟨-, x, hx, -, hxI⟩ := hl y hy
    exact ⟨x, hx, hxI⟩) fuel hf pos
  refine ⟨rs, s', h1, h3, es, p, by rw [h2]; exact he, ?_⟩
  have hin : ∀ y ∈ psshOf B {} 0, y.1.offset + y.1.size ≤ (B.ser true {}).length ∧ y.1.headerSize ≤ y.1.size := by
    intro y hy
    have hm : y.1 ∈ askedBoxes psshPaths (B.forest true {} 0) := by rw [hb]; exact List.mem_map.2 ⟨y, hy, rfl⟩
    obtain ⟨z, hz, e⟩ := List.mem_map.1 hm
    obtain ⟨hz, -⟩ := List.mem_filter.1 hz
    obtain ⟨a, b, -⟩ := boxes_placed (show (B.ser true {}).length ≤ maxAlloc from hlen) _ hwf z hz
    rw [← e]
    exact ⟨a, b⟩
  rw [hb] at hlist
  exact entries hlen _ 0 es hl hin hlist

def psshOne : PsshBox := ⟨0, 0, 0, 5, widevine, [], [0xab, 0xcd]⟩
def psshTwo : PsshBox := ⟨1, 0, 0, 0, common, [[1, 2, 3, 4, 5, 6, 7, 8, 9, 10, 11, 12, 13, 14, 15, 16]], [7]⟩

/-- `moov` with two `pssh` boxes, a third at the root that nobody asks for -/
def psshBoxes : Boxes :=
  plainBox tMoov Cat.bdMoov [] (plainBox tPssh Cat.bdPssh psshOne.sv .nil (plainBox tPssh Cat.bdPssh psshTwo.sv .nil .nil))
    (plainBox tPssh Cat.bdPssh psshOne.sv .nil .nil)

theorem psshBoxes_ok : psshBoxes.Ok true true {} ∧ psshBoxes.Unknown true {} ∧ Proper psshBoxes := by
  have w1 : psshOne.WF := ⟨by decide, by decide, by decide, by decide, by decide, by decide, by decide⟩
  have w2 : psshTwo.WF := ⟨by decide, by decide, by decide, by decide, by decide, by decide, by decide⟩
  exact ⟨⟨by decide +kernel, by decide, by only_def, by decide +kernel,
    ⟨by decide +kernel, by decide, std_pssh _, by decide +kernel, trivial, by decide +kernel, by decide, std_pssh _, by decide +kernel, trivial, trivial⟩,
    by decide +kernel, by decide, std_pssh _, by decide +kernel, trivial, trivial⟩,
    ⟨⟨trivial, trivial, trivial⟩, trivial, trivial⟩,
    ⟨fun h => absurd h (by decide), ⟨fun _ => ⟨rfl, _, w1, rfl⟩, trivial, fun _ => ⟨rfl, _, w2, rfl⟩, trivial, trivial⟩, fun _ => ⟨rfl, _, w1, rfl⟩, trivial, trivial⟩⟩

/-- two boxes to show, the second with its identifier of a key -/
example : (psshOf psshBoxes {} 0).map (fun y => (y.1.offset, y.1.size, y.2.1.length)) = [(8, 34, 34), (42, 53, 53)] := by decide +kernel

example : ∃ rs s', runOps noFaults (psshBoxes.tree true {}).ops (WrSt.new ⟨[], 0, 0⟩) = (.ok rs, s') ∧ s'.stack = [] ∧
    ∃ es p, psshdump BoxMap.std s'.file.data 9 0 = (.ok es, p) ∧ Entries 0 (psshOf psshBoxes {} 0) es :=
  psshdump_written psshBoxes psshBoxes_ok.1 psshBoxes_ok.2.1 (by decide +kernel) psshBoxes_ok.2.2 9 (by decide +kernel) 0

end Mp4.Props
