import Verif.Spec.DivideBoxes
import Verif.Lemmas.Summary
import Verif.Lemmas.EditBoxes
import Verif.Props.ToolDivide

/-!
# Lemmas on what `mp4tool divide` makes of a row of boxes
-/

namespace Mp4.DivideBoxes

open Mp4.Props Mp4.Tool Boxes

variable {d : Bytes} {fuel : Nat}

/-! ## The row with only `moov` opened -/

/-- the row, only `moov` boxes opened -/
def laid : Boxes → Bool → Ctx → Nat → Forest
  | .nil, _, _, _ => .nil
  | .raw start p rest, isRoot, ctx, pos =>
    let size := (Form.of start).len + p.length
    .leaf (info start pos size ctx) (laid rest isRoot ctx (pos + size))
  | .box start bd sv kids rest, isRoot, ctx, pos =>
    let own := ownCtx isRoot ctx start.type sv
    let n := (bitsBytes (Spec.layout bd own sv)).length
    let body := kids.ser false (kidsCtx isRoot ctx start sv)
    let size := (Form.of start).len + (n + body.length)
    if start.type = fourcc "moov" then
      .node (info start pos size own) 0 (laid kids false (kidsCtx isRoot ctx start sv) (pos + (Form.of start).len))
        (laid rest isRoot (restCtx isRoot ctx start sv) (pos + size))
    else .leaf (info start pos size own) (laid rest isRoot (restCtx isRoot ctx start sv) (pos + size))

theorem moov_def (ctx : Ctx) : BoxMap.std.getBoxDef (fourcc "moov") ctx = some Cat.bdMoov := by
  rw [show fourcc "moov" = Mp4.tMoov by decide]
  refine std_def (by decide +kernel) ?_
  unfold Cat.allDefs
  simp only [List.forall_mem_cons]
  repeat' apply And.intro
  all_goals first
    | (intro _; rfl)
    | (intro _; trivial)
    | (intro h; exact absurd h (by decide))
    | (intro x hx; exact absurd hx (by simp))

theorem moov_empty {t : BoxType} {ctx : Ctx} {bd : BoxDef} (ht : t = fourcc "moov") (h : BoxMap.std.getBoxDef t ctx = some bd) (c : Ctx) (sv : SV) :
    (bitsBytes (Spec.layout bd c sv)).length = 0 := by
  rw [ht, moov_def] at h
  cases h
  rfl

theorem moov_known (ctx : Ctx) : BoxMap.std.isSupported (fourcc "moov") ctx = true := by
  unfold BoxMap.isSupported
  rw [moov_def]
  rfl

theorem seen_of {isRoot : Bool} {path : List BoxType} {ctx : Ctx} {pos total : Nat} {bi : BoxInfo} (h : Forest.Placed d isRoot path ctx pos total bi)
    (h8 : 8 ≤ bi.headerSize) : Seen d isRoot path ctx pos total bi :=
  ⟨h.offset, h.header, h.inParent.imp id fun e => ⟨by have := h.whole; omega, e⟩, h.own⟩

theorem form_len (f : Form) : 8 ≤ f.len := by cases f <;> decide

theorem end_of {isRoot : Bool} {path : List BoxType} {ctx : Ctx} {pos total : Nat} {bi : BoxInfo} (h : Forest.Placed d isRoot path ctx pos total bi)
    (hd : d.length ≤ 2 ^ 48) : endOf bi = pos + bi.size := by
  unfold endOf
  rw [h.offset, Nat.mod_eq_of_lt]
  have := h.inFile
  omega

theorem laid_laid (hd : d.length ≤ 2 ^ 48) : ∀ (B : Boxes) (isRoot last : Bool) (path : List BoxType) (ctx : Ctx) (pos total : Nat),
    (B.forest isRoot ctx pos).WF d isRoot path ctx pos total → B.Ok isRoot last ctx → B.Unknown isRoot ctx →
    Laid d (laid B isRoot ctx pos) isRoot path ctx pos total ∧ SaneSizes (laid B isRoot ctx pos)
  | .nil, isRoot, _, path, ctx, pos, total, hwf, _, _ => by
    refine ⟨?_, trivial⟩
    show RowEnds d isRoot ctx pos total
    unfold RowEnds
    simp only [Boxes.forest, Forest.WF] at hwf
    split
    · next h =>
      rw [if_pos h] at hwf
      rw [hwf, List.drop_length]
      rfl
    · next h =>
      rw [if_neg h] at hwf
      rcases hwf with e | e
      · exact ⟨by omega, .inl e⟩
      · exact ⟨e.1, .inr e.2⟩
  | .raw start p rest, isRoot, last, path, ctx, pos, total, hwf, hok, hu => by
    obtain ⟨hpl, hrest⟩ := hwf
    have hnk : nextCtx ctx (info start pos ((Form.of start).len + p.length) ctx) = ctx := nextCtx_same rfl hok.2.2.2.1
    have hr := laid_laid hd rest isRoot last path ctx _ _ (by rw [hnk] at hrest; exact hrest) hok.2.2.2.2 hu.2
    refine ⟨⟨seen_of hpl (form_len _), fun e => ?_, ?_⟩, ⟨hpl.whole, ?_⟩, hr.2⟩
    · have := hu.1
      rw [show start.type = fourcc "moov" from e, moov_known] at this
      cases this
    · rw [end_of hpl hd, hnk]
      exact hr.1
    · have := hpl.inFile
      omega
  | .box start bd sv kids rest, isRoot, last, path, ctx, pos, total, hwf, hok, hu => by
    obtain ⟨hpl, hn, hk, hrest⟩ := hwf
    obtain ⟨h1, h2, h3, h4, h5, h6⟩ := hok
    have hr := laid_laid hd rest isRoot last path (restCtx isRoot ctx start sv) _ _ hrest h6 hu.2
    have hsz := hpl.inFile
    unfold laid
    simp only
    split
    · next hm =>
      have e0 := moov_empty hm h3 (ownCtx isRoot ctx start.type sv) sv
      rw [e0] at hk hpl hr hsz ⊢
      have hkids := laid_laid hd kids false _ _ (kidsCtx isRoot ctx start sv) _ _ hk h5 hu.1
      refine ⟨⟨seen_of hpl (form_len _), hm, rfl, ?_, ?_⟩, ⟨hpl.whole, by omega⟩, hkids.2, hr.2⟩
      · have e1 : room (info start pos ((Form.of start).len + (0 + (kids.ser false (kidsCtx isRoot ctx start sv)).length)) (ownCtx isRoot ctx start.type sv))
            (pos + (Form.of start).len) = (Form.of start).len + (0 + (kids.ser false (kidsCtx isRoot ctx start sv)).length) - (Form.of start).len - 0 := by
          unfold room
          simp only [info] at hsz ⊢
          have : (Form.of start).len ≤ 16 := by cases Form.of start <;> decide
          omega
        show Laid d _ false _ _ (pos + (Form.of start).len) (room _ (pos + (Form.of start).len))
        rw [e1]
        exact hkids.1
      · rw [end_of hpl hd]
        exact hr.1
    · next hm =>
      refine ⟨⟨seen_of hpl (form_len _), hm, ?_⟩, ⟨hpl.whole, by omega⟩, hr.2⟩
      rw [end_of hpl hd]
      exact hr.1

/-! ## What is found below a box -/

theorem below_eq (hd : d.length ≤ 2 ^ 48) {q : List String} (h : PlainPaths [q.map fourcc]) {bi : BoxInfo} {n : Nat} {kids : Boxes}
    {restF : Forest} {isRoot : Bool} {path : List BoxType} {ctx : Ctx} {pos total kpos : Nat}
    (hwf : (Forest.node bi n (kids.forest false (childCtx bi) kpos) restF).WF d isRoot path ctx pos total)
    (hu : kids.Unknown false (childCtx bi)) (hr : Reads d (kids.fields false (childCtx bi) kpos)) (hi : bi.ctx.underIlst = false)
    (ht : bi.type ≠ tFtyp ∧ bi.type ≠ tKeys ∧ bi.type ≠ ⟨0, 0, 0, 0⟩ ∧ bi.type ≠ tWave ∧ bi.type ≠ tIlst ∧ bi.type ≠ tUdta)
    (hf : (kids.forest false (childCtx bi) kpos).count < fuel) :
    trackIn d fuel q bi = kids.idAt q := by
  obtain ⟨l, p', e1, e2⟩ := payloads_below hd h hwf hu hr hi ht fuel hf 0
  unfold trackIn below Boxes.idAt extractBoxWithPayload
  rw [e1]
  simp only
  generalize kids.atPaths [q.map fourcc] = l' at e2
  match l, l', e2 with
  | [], [], _ => rfl
  | [x], [y], e2 =>
    simp only [List.map_cons, List.map_nil, List.cons.injEq, Prod.mk.injEq, and_true] at e2
    simp only [List.map_cons, List.map_nil, e2.2]
  | _ :: _ :: _, _ :: _ :: _, _ => rfl
  | [], _ :: _, e2 => simp at e2
  | _ :: _, [], e2 => simp at e2
  | [_], _ :: _ :: _, e2 => simp at e2
  | _ :: _ :: _, [_], e2 => simp at e2

theorem PlainPaths.mono {l l' : List (List BoxType)} (h : PlainPaths l) (hs : ∀ q ∈ l', q ∈ l) : PlainPaths l' :=
  ⟨fun q hq => h.ne q (hs q hq), fun q hq => h.any q (hs q hq), fun q hq => h.known q (hs q hq), fun q hq => h.clean q (hs q hq),
    fun q hq => h.wave q (hs q hq)⟩

theorem plain_tkhd : PlainPaths [["tkhd"].map fourcc] := PlainPaths.mono plain_trak (by decide +kernel)
theorem plain_tfhd : PlainPaths [["traf", "tfhd"].map fourcc] := PlainPaths.mono plain_moof (by decide +kernel)

/-- what the tool finds below `trak` and `moof` boxes is what is there -/
def Linked (d : Bytes) (fuel : Nat) : Boxes → Bool → Ctx → Nat → Prop
  | .nil, _, _, _ => True
  | .raw start p rest, isRoot, ctx, pos => Linked d fuel rest isRoot ctx (pos + ((Form.of start).len + p.length))
  | .box start bd sv kids rest, isRoot, ctx, pos =>
    let own := ownCtx isRoot ctx start.type sv
    let n := (bitsBytes (Spec.layout bd own sv)).length
    let body := kids.ser false (kidsCtx isRoot ctx start sv)
    let size := (Form.of start).len + (n + body.length)
    (start.type = fourcc "trak" → trackIn d fuel ["tkhd"] (info start pos size own) = kids.idAt ["tkhd"]) ∧
    (start.type = fourcc "moof" → trackIn d fuel ["traf", "tfhd"] (info start pos size own) = kids.idAt ["traf", "tfhd"]) ∧
    (start.type = fourcc "moov" → Linked d fuel kids false (kidsCtx isRoot ctx start sv) (pos + (Form.of start).len)) ∧
    Linked d fuel rest isRoot (restCtx isRoot ctx start sv) (pos + size)

theorem linked (hd : d.length ≤ 2 ^ 48) : ∀ (B : Boxes) (isRoot last : Bool) (path : List BoxType) (ctx : Ctx) (pos total : Nat),
    (B.forest isRoot ctx pos).WF d isRoot path ctx pos total → B.Ok isRoot last ctx → B.Unknown isRoot ctx →
    Reads d (B.fields isRoot ctx pos) → ctx.underIlst = false → (B.forest isRoot ctx pos).count < fuel → Linked d fuel B isRoot ctx pos
  | .nil, _, _, _, _, _, _, _, _, _, _, _, _ => trivial
  | .raw start p rest, isRoot, last, path, ctx, pos, total, hwf, hok, hu, hr, hi, hf => by
    obtain ⟨hpl, hrest⟩ := hwf
    have hnk : nextCtx ctx (info start pos ((Form.of start).len + p.length) ctx) = ctx := nextCtx_same rfl hok.2.2.2.1
    simp only [Boxes.forest, Forest.count] at hf
    exact linked hd rest isRoot last path ctx _ _ (by rw [hnk] at hrest; exact hrest) hok.2.2.2.2 hu.2 hr hi (by omega)
  | .box start bd sv kids rest, isRoot, last, path, ctx, pos, total, hwf, hok, hu, hr, hi, hf => by
    have hwf' := hwf
    obtain ⟨hpl, hn, hk, hrest⟩ := hwf
    obtain ⟨h1, h2, h3, h4, h5, h6⟩ := hok
    simp only [Boxes.forest, Forest.count] at hf
    simp only [Boxes.fields] at hr
    simp only [Boxes.forest] at hwf'
    have hkr : Reads d (kids.fields false (kidsCtx isRoot ctx start sv) _) :=
      fun x hx => hr x (List.mem_cons_of_mem _ (List.mem_append.2 (.inl hx)))
    have hoi : (ownCtx isRoot ctx start.type sv).underIlst = false := own_ilst hi
    have hl := linked hd rest isRoot last path (restCtx isRoot ctx start sv) _ _ hrest h6 hu.2
      (fun x hx => hr x (List.mem_cons_of_mem _ (List.mem_append.2 (.inr hx)))) (rest_ilst hi) (by omega)
    refine ⟨fun e => ?_, fun e => ?_, fun e => ?_, hl⟩
    · refine below_eq hd plain_tkhd hwf' hu.1 hkr hoi ?_ (by show Forest.count (kids.forest false (kidsCtx isRoot ctx start sv) _) < _; omega)
      show start.type ≠ _ ∧ start.type ≠ _ ∧ start.type ≠ _ ∧ start.type ≠ _ ∧ start.type ≠ _ ∧ start.type ≠ _
      rw [e]
      decide
    · refine below_eq hd plain_tfhd hwf' hu.1 hkr hoi ?_ (by show Forest.count (kids.forest false (kidsCtx isRoot ctx start sv) _) < _; omega)
      show start.type ≠ _ ∧ start.type ≠ _ ∧ start.type ≠ _ ∧ start.type ≠ _ ∧ start.type ≠ _ ∧ start.type ≠ _
      rw [e]
      decide
    · have e0 := moov_empty e h3 (ownCtx isRoot ctx start.type sv) sv
      rw [e0] at hk hkr hf
      rw [Nat.add_zero] at hk hkr hf
      have hcc : (kidsCtx isRoot ctx start sv).underIlst = false := by
        unfold kidsCtx childCtx
        rw [if_neg (show ¬ (info start 0 0 (ownCtx isRoot ctx start.type sv)).type = tWave by show ¬ start.type = _; rw [e]; decide),
          if_neg (show ¬ (info start 0 0 (ownCtx isRoot ctx start.type sv)).type = tIlst by show ¬ start.type = _; rw [e]; decide),
          if_neg (fun hc => by rw [show (info start 0 0 (ownCtx isRoot ctx start.type sv)).ctx.underIlst = false from hoi] at hc; cases hc.1),
          if_neg (show ¬ (info start 0 0 (ownCtx isRoot ctx start.type sv)).type = tUdta by show ¬ start.type = _; rw [e]; decide)]
        exact hoi
      exact linked hd kids false _ _ (kidsCtx isRoot ctx start sv) _ _ hk h5 hu.1 hkr hcc (by omega)

/-! ## The boxes the tool expects -/

/-- the types of the boxes at the root -/
def rootNames : List String := initNames ++ ["moof", "mdat", "mfra"]

/-- the boxes the tool expects, in `moov` (recursively) and at the root -/
def Exp : Boxes → Prop
  | .nil => True
  | .raw _ _ _ => False
  | .box start _ _ kids rest =>
    start.type ∈ rootNames.map fourcc ∧ (start.type = fourcc "trak" → kids.idAt ["tkhd"] ≠ none) ∧
    (start.type = fourcc "moof" → kids.idAt ["traf", "tfhd"] ≠ none) ∧ (start.type = fourcc "moov" → Exp kids) ∧ Exp rest

theorem root_known : ∀ t ∈ rootNames.map fourcc, ∃ name,
    (BoxMap.std t).map (fun bd => (bd.goName, bd.target.isNone)) = [(name, true)] := by
  have h : ∀ t ∈ rootNames.map fourcc,
      (BoxMap.std t).map (fun bd => (bd.goName, bd.target.isNone)) = [(((BoxMap.std t).map BoxDef.goName).headD "", true)] := by
    decide +kernel
  exact fun t ht => ⟨_, h t ht⟩

theorem root_unknown {t : BoxType} {ctx : Ctx} (ht : t ∈ rootNames.map fourcc) (h : BoxMap.std.isSupported t ctx = false) : False := by
  obtain ⟨name, hn⟩ := root_known t ht
  obtain ⟨bd, e, -⟩ := lookup_single hn ctx
  unfold BoxMap.isSupported at h
  rw [e] at h
  cases h

theorem named_root {bi : BoxInfo} (h : Named initNames bi ∨ Named ["moof", "mdat", "mfra"] bi) : bi.type ∈ rootNames.map fourcc := by
  unfold rootNames
  rw [List.map_append, List.mem_append]
  exact h

theorem exp_of : ∀ (B : Boxes) (isRoot : Bool) (ctx : Ctx) (pos : Nat), B.Unknown isRoot ctx → Linked d fuel B isRoot ctx pos →
    Expected d fuel (laid B isRoot ctx pos) → (∀ b ∈ row (laid B isRoot ctx pos), b.type ∈ rootNames.map fourcc ∨ b.type = fourcc "moov") → Exp B
  | .nil, _, _, _, _, _, _, _ => trivial
  | .raw start p rest, isRoot, ctx, pos, hu, hl, he, hb => (root_unknown (named_root he.1) hu.1).elim
  | .box start bd sv kids rest, isRoot, ctx, pos, hu, hl, he, hb => by
    obtain ⟨l1, l2, l3, l4⟩ := hl
    unfold laid at he hb
    simp only at he hb
    split at he
    · next hm =>
      rw [if_pos hm] at hb
      obtain ⟨he0, he1, he2⟩ := he
      refine ⟨?_, fun e => ?_, fun e => ?_, fun _ => ?_, ?_⟩
      · rw [hm]; decide
      · rw [e] at hm; exact absurd hm (by decide)
      · rw [e] at hm; exact absurd hm (by decide)
      · exact exp_of kids false _ _ hu.1 (l3 hm) he1 (fun b hb' => .inl (named_root (.inl (he0 b hb'))))
      · exact exp_of rest isRoot _ _ hu.2 l4 he2 (fun b hb' => hb b (List.mem_cons_of_mem _ hb'))
    · next hm =>
      rw [if_neg hm] at hb
      obtain ⟨he0, he1, he2, he3⟩ := he
      refine ⟨named_root he0, fun e => ?_, fun e => ?_, fun e => absurd e hm, ?_⟩
      · rw [← l1 e]; exact he1 (named_trak.2 (e.trans (by decide)))
      · rw [← l2 e]; exact he2 (named_moof.2 (e.trans (by decide)))
      · exact exp_of rest isRoot _ _ hu.2 l4 he3 (fun b hb' => hb b (List.mem_cons_of_mem _ hb'))

/-! ## Contexts -/

theorem rest_same {isRoot : Bool} {ctx : Ctx} {start : BoxInfo} {sv : SV} (h1 : start.type ≠ tFtyp) (h2 : start.type ≠ tKeys) :
    restCtx isRoot ctx start sv = ctx := by
  unfold restCtx
  refine nextCtx_same ?_ h2
  show ownCtx isRoot ctx start.type sv = ctx
  unfold ownCtx
  rw [if_neg (fun h => h1 h.2.1), if_neg h2]

/-- a box that is left out of initialization segments -/
theorem left_out {t : BoxType} (ht : t ∈ rootNames.map fourcc) (h : ¬ (t ∈ initNames.map fourcc ∧ (t = fourcc "trak" → False))) :
    t ≠ tFtyp ∧ t ≠ tKeys := by
  revert h
  revert t
  decide +kernel

theorem dropped {t : BoxType} {p : Prop} (ht : t ∈ rootNames.map fourcc) (h : ¬ (t ∈ initNames.map fourcc ∧ (t = fourcc "trak" → p))) :
    t ≠ tFtyp ∧ t ≠ tKeys :=
  left_out ht (fun h' => h ⟨h'.1, fun e => (h'.2 e).elim⟩)

/-! ## The initialization segment -/

theorem take_drop_append {a b : Bytes} {pos : Nat} (h : d.drop pos = a ++ b) : (d.drop pos).take a.length = a ∧ d.drop (pos + a.length) = b := by
  refine ⟨by rw [h, List.take_left], ?_⟩
  rw [← List.drop_drop, h, List.drop_left]

theorem initSegment_ser {t : DTrack} : ∀ (B : Boxes) (isRoot last : Bool) (ctx : Ctx) (pos : Nat) (post : Bytes), B.Ok isRoot last ctx →
    Exp B → Linked d fuel B isRoot ctx pos → d.drop pos = B.ser isRoot ctx ++ post →
    initSegment d fuel t (laid B isRoot ctx pos) = (B.initOf t.id).ser isRoot ctx
  | .nil, _, _, _, _, _, _, _, _, _ => rfl
  | .raw _ _ _, _, _, _, _, _, _, he, _, _ => he.elim
  | .box start bd sv kids rest, isRoot, last, ctx, pos, post, hok, he, hl, hd => by
    obtain ⟨h1, h2, h3, h4, h5, h6⟩ := hok
    obtain ⟨e1, e2, e3, e4, e5⟩ := he
    obtain ⟨l1, l2, l3, l4⟩ := hl
    simp only [Boxes.ser] at hd
    simp only [laid, Boxes.initOf]
    generalize hF : bitsBytes (Spec.layout bd (ownCtx isRoot ctx start.type sv) sv) = F at *
    generalize hK : kids.ser false (kidsCtx isRoot ctx start sv) = K at *
    rw [List.append_assoc] at hd
    obtain ⟨d1, d2⟩ := take_drop_append hd
    have hlen : ((Form.of start).header start.type ((Form.of start).len + (F ++ K).length) ++ (F ++ K)).length =
        (Form.of start).len + (F.length + K.length) := by simp
    rw [hlen] at d1 d2
    have hrest := initSegment_ser (t := t) rest isRoot last (restCtx isRoot ctx start sv) _ post h6 e5 l4 d2
    by_cases hm : start.type = fourcc "moov"
    · rw [if_pos hm, if_pos hm]
      have hF0 : F.length = 0 := by rw [← hF]; exact moov_empty hm h3 _ sv
      have hF1 : F = [] := List.eq_nil_of_length_eq_zero hF0
      subst hF1
      simp only [List.nil_append] at hd
      rw [List.append_assoc] at hd
      have d3 := (take_drop_append hd).2
      rw [Form.header_length] at d3
      have hkids := initSegment_ser (t := t) kids false _ (kidsCtx isRoot ctx start sv) (pos + (Form.of start).len) _ h5 (e4 hm) (l3 hm)
        (by rw [hK]; exact d3)
      simp only [initSegment, Boxes.ser]
      rw [hkids, hrest, hF]
      have hfi : Form.of (info start pos ((Form.of start).len + (([] : Bytes).length + K.length)) (ownCtx isRoot ctx start.type sv)) = Form.of start :=
        form_info (fun e => by have := h1 e; rw [e]; simp only [Form.len]; omega)
      rw [hfi]
      rfl
    · rw [if_neg hm, if_neg hm]
      simp only [initSegment]
      have hb : Belongs d fuel t (info start pos ((Form.of start).len + (F.length + K.length)) (ownCtx isRoot ctx start.type sv)) ↔
          (start.type ∈ initNames.map fourcc ∧ (start.type = fourcc "trak" → kids.idAt ["tkhd"] = some t.id)) := by
        unfold Belongs
        refine and_congr Iff.rfl ?_
        constructor
        · intro h e
          rw [← l1 e]
          exact h (named_trak.2 (e.trans (by decide)))
        · intro h e
          have e' : start.type = fourcc "trak" := (named_trak.1 e).trans (by decide)
          rw [l1 e']
          exact h e'
      by_cases hB : start.type ∈ initNames.map fourcc ∧ (start.type = fourcc "trak" → kids.idAt ["tkhd"] = some t.id)
      · rw [if_pos (hb.2 hB), if_pos hB, hrest]
        simp only [Boxes.ser]
        rw [hF, hK]
        congr 1
      · rw [if_neg (fun h => hB (hb.1 h)), if_neg hB, hrest, List.nil_append]
        obtain ⟨n1, n2⟩ := dropped e1 hB
        rw [rest_same n1 n2]

/-! ## The segments -/

theorem rest_neutral {isRoot : Bool} {ctx : Ctx} {start : BoxInfo} {bd : BoxDef} {sv : SV} {kids rest : Boxes} (h : (Boxes.box start bd sv kids rest).Neutral) :
    restCtx isRoot ctx start sv = ctx ∧ rest.Neutral := by
  obtain ⟨h1, h2, h3⟩ := h
  refine ⟨?_, h3⟩
  unfold restCtx
  refine nextCtx_same ?_ h2
  show ownCtx isRoot ctx start.type sv = ctx
  unfold ownCtx
  rw [if_neg (fun h => h1 h.2), if_neg h2]

theorem row_box (start : BoxInfo) (bd : BoxDef) (sv : SV) (kids rest : Boxes) (isRoot : Bool) (ctx : Ctx) (pos : Nat) :
    row (laid (.box start bd sv kids rest) isRoot ctx pos) =
      info start pos ((Form.of start).len + ((bitsBytes (Spec.layout bd (ownCtx isRoot ctx start.type sv) sv)).length +
        (kids.ser false (kidsCtx isRoot ctx start sv)).length)) (ownCtx isRoot ctx start.type sv) ::
      row (laid rest isRoot (restCtx isRoot ctx start sv) (pos + ((Form.of start).len +
        ((bitsBytes (Spec.layout bd (ownCtx isRoot ctx start.type sv) sv)).length + (kids.ser false (kidsCtx isRoot ctx start sv)).length)))) := by
  simp only [laid]
  split <;> rfl

/-- the bytes of the first box, and of the others -/
theorem raw_box {start : BoxInfo} {bd : BoxDef} {sv : SV} {kids rest : Boxes} {isRoot : Bool} {ctx : Ctx} {pos : Nat} {post : Bytes}
    (hd : d.drop pos = (Boxes.box start bd sv kids rest).ser isRoot ctx ++ post) :
    (∀ more, (Boxes.box start bd sv kids more).ser isRoot ctx =
      rawBytes d (info start pos ((Form.of start).len + ((bitsBytes (Spec.layout bd (ownCtx isRoot ctx start.type sv) sv)).length +
        (kids.ser false (kidsCtx isRoot ctx start sv)).length)) (ownCtx isRoot ctx start.type sv)) ++ more.ser isRoot (restCtx isRoot ctx start sv)) ∧
    d.drop (pos + ((Form.of start).len + ((bitsBytes (Spec.layout bd (ownCtx isRoot ctx start.type sv) sv)).length +
      (kids.ser false (kidsCtx isRoot ctx start sv)).length))) = rest.ser isRoot (restCtx isRoot ctx start sv) ++ post := by
  simp only [Boxes.ser] at hd ⊢
  generalize bitsBytes (Spec.layout bd (ownCtx isRoot ctx start.type sv) sv) = F at *
  generalize kids.ser false (kidsCtx isRoot ctx start sv) = K at *
  rw [List.append_assoc] at hd
  obtain ⟨d1, d2⟩ := take_drop_append hd
  have hlen : ((Form.of start).header start.type ((Form.of start).len + (F ++ K).length) ++ (F ++ K)).length =
      (Form.of start).len + (F.length + K.length) := by simp
  rw [hlen] at d1 d2
  exact ⟨fun more => by rw [← d1]; rfl, d2⟩

theorem mdats_ser : ∀ (B : Boxes) (ctx : Ctx) (pos : Nat) (post : Bytes), Exp B → B.Neutral → d.drop pos = B.ser true ctx ++ post →
    ((((row (laid B true ctx pos)).takeWhile fun b => ¬ Named ["moof"] b).filter fun b => Named ["mdat"] b).map (rawBytes d)).flatten =
      B.mdats.ser true ctx
  | .nil, _, _, _, _, _, _ => rfl
  | .raw _ _ _, _, _, _, he, _, _ => he.elim
  | .box start bd sv kids rest, ctx, pos, post, he, hn, hd => by
    obtain ⟨d1, d2⟩ := raw_box hd
    obtain ⟨n1, n2⟩ := rest_neutral (isRoot := true) (ctx := ctx) hn
    rw [n1] at d1 d2
    have hrec := mdats_ser rest ctx _ post he.2.2.2.2 n2 d2
    rw [row_box, n1]
    generalize hbi : info start pos _ _ = bi at *
    have ht : bi.type = start.type := by rw [← hbi]; rfl
    simp only [Boxes.mdats]
    by_cases e1 : start.type = fourcc "moof"
    · rw [if_pos e1, List.takeWhile_cons_of_neg (by simp only [named_moof, ht, e1]; decide)]
      rfl
    have m1 : ¬ Named ["moof"] bi := by rw [named_moof, ht]; exact e1
    rw [if_neg e1, List.takeWhile_cons_of_pos (by simpa using m1)]
    by_cases e2 : start.type = fourcc "mdat"
    · have m2 : Named ["mdat"] bi := by rw [named_mdat, ht]; exact e2
      rw [if_pos e2, List.filter_cons_of_pos (by simpa using m2), List.map_cons, List.flatten_cons, hrec, d1]
    · have m2 : ¬ Named ["mdat"] bi := by rw [named_mdat, ht]; exact e2
      rw [if_neg e2, List.filter_cons_of_neg (by simpa using m2), hrec]

theorem segments_ser {t : DTrack} : ∀ (B : Boxes) (ctx : Ctx) (pos : Nat) (post : Bytes), Exp B → B.Neutral → Linked d fuel B true ctx pos →
    d.drop pos = B.ser true ctx ++ post →
    (segments d fuel t (row (laid B true ctx pos))).map (·.2) = (B.segmentsOf t.id).map (·.ser true ctx)
  | .nil, _, _, _, _, _, _, _ => rfl
  | .raw _ _ _, _, _, _, he, _, _, _ => he.elim
  | .box start bd sv kids rest, ctx, pos, post, he, hn, hl, hd => by
    obtain ⟨d1, d2⟩ := raw_box hd
    obtain ⟨n1, n2⟩ := rest_neutral (isRoot := true) (ctx := ctx) hn
    obtain ⟨l1, l2, l3, l4⟩ := hl
    rw [n1] at d1 d2 l4
    have hrec := segments_ser (t := t) rest ctx _ post he.2.2.2.2 n2 l4 d2
    have hmd := mdats_ser rest ctx _ post he.2.2.2.2 n2 d2
    rw [row_box, n1]
    generalize hbi : info start pos _ _ = bi at *
    have ht : bi.type = start.type := by rw [← hbi]; rfl
    simp only [Boxes.segmentsOf]
    unfold segments at hrec ⊢
    simp only [fragments]
    by_cases e1 : start.type = fourcc "moof"
    · have m1 : Named ["moof"] bi := by rw [named_moof, ht]; exact e1
      rw [if_pos m1]
      by_cases e2 : kids.idAt ["traf", "tfhd"] = some t.id
      · rw [if_pos ⟨e1, e2⟩, List.filter_cons_of_pos (by simp only [l2 e1, e2, decide_true]), List.map_cons, List.map_cons, List.map_cons, hrec, hmd, d1]
      · rw [if_neg (fun h => e2 h.2), List.filter_cons_of_neg (by simp only [l2 e1, e2, decide_false, Bool.false_eq_true, not_false_eq_true]), hrec]
    · have m1 : ¬ Named ["moof"] bi := by rw [named_moof, ht]; exact e1
      rw [if_neg m1, if_neg (fun h => e1 h.1), hrec]

end Mp4.DivideBoxes
