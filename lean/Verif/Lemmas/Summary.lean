import Verif.Spec.Summary
import Verif.Lemmas.Concat
import Verif.Props.Probe
import Verif.Props.WriteRead

/-!
# Lemmas on the summary of a written file
-/

namespace Mp4

open Props

variable {d : Bytes}

/-! ## Boxes at given paths below a box -/

namespace Boxes

/-- the boxes with fields in the row (not at the root): path, box and contents -/
def vals : Boxes → Ctx → Nat → List BoxType → List (List BoxType × BoxInfo × BoxVal)
  | nil, _, _, _ => []
  | raw start p rest, ctx, pos, path => rest.vals ctx (pos + ((Form.of start).len + p.length)) path
  | box start bd sv kids rest, ctx, pos, path =>
    let own := ownCtx false ctx start.type sv
    let n := (bitsBytes (Spec.layout bd own sv)).length
    let body := kids.ser false (kidsCtx false ctx start sv)
    let size := (Form.of start).len + (n + body.length)
    (path ++ [start.type], info start pos size own, ⟨bd, start.type, sv⟩) ::
      (kids.vals (kidsCtx false ctx start sv) (pos + (Form.of start).len + n) (path ++ [start.type]) ++
        rest.vals (restCtx false ctx start sv) (pos + size) path)

theorem vals_inside : ∀ (B : Boxes) (ctx : Ctx) (pos : Nat) (path : List BoxType),
    (B.vals ctx pos path).map (fun x => (x.1, x.2.2)) = B.inside path
  | nil, _, _, _ => rfl
  | raw start p rest, ctx, pos, path => vals_inside rest _ _ _
  | box start bd sv kids rest, ctx, pos, path => by
    simp only [vals, inside, List.map_cons, List.map_append, vals_inside rest, vals_inside kids]

theorem vals_fields : ∀ (B : Boxes) (ctx : Ctx) (pos : Nat) (path : List BoxType), ∀ x ∈ B.vals ctx pos path,
    (x.2.1, x.2.2.bd, x.2.2.sv) ∈ B.fields false ctx pos ∧ x.2.2.type = x.2.1.type
  | nil, _, _, _, x, hx => by simp [vals] at hx
  | raw start p rest, ctx, pos, path, x, hx => vals_fields rest _ _ _ x hx
  | box start bd sv kids rest, ctx, pos, path, x, hx => by
    simp only [vals, List.mem_cons, List.mem_append] at hx
    simp only [fields, List.mem_cons, List.mem_append]
    rcases hx with rfl | hx | hx
    · exact ⟨.inl rfl, rfl⟩
    · exact ⟨.inr (.inl (vals_fields kids _ _ _ x hx).1), (vals_fields kids _ _ _ x hx).2⟩
    · exact ⟨.inr (.inr (vals_fields rest _ _ _ x hx).1), (vals_fields rest _ _ _ x hx).2⟩

end Boxes

/-- Paths through types that are known everywhere, and below which nothing changes that matters for the boxes at their ends. -/
structure PlainPaths (paths : List (List BoxType)) : Prop where
  ne : ∀ q ∈ paths, q ≠ []
  any : ∀ q ∈ paths, ∀ t ∈ q, t ≠ ⟨0, 0, 0, 0⟩
  known : ∀ q ∈ paths, ∀ t ∈ q, ∀ ctx, BoxMap.std.isSupported t ctx = true
  clean : ∀ q ∈ paths, ∀ t ∈ q, t ≠ tIlst ∧ t ≠ tUdta
  wave : ∀ q ∈ paths, tWave ∈ q → ∀ t ∈ q.getLast?, t ∉ Mp4.audioTypes

theorem PlainPaths.asked {paths : List (List BoxType)} (h : PlainPaths paths) (p : List BoxType) : Asked paths p ↔ p ∈ paths := by
  constructor
  · rintro ⟨-, q, hq, hp⟩
    rw [hasPattern_exact (h.any q hq)] at hp
    exact hp ▸ hq
  · intro hp
    exact ⟨h.any p hp, p, hp, (hasPattern_exact (h.any p hp)).2 rfl⟩

theorem leaves_last : ∀ (F : Forest) (path : List BoxType), ∀ x ∈ leaves path F, x.2.type ∈ x.1
  | .nil, _, x, hx => by simp [leaves] at hx
  | .leaf bi rest, path, x, hx => by
    simp only [leaves, List.mem_cons] at hx
    rcases hx with rfl | hx
    · simp
    · exact leaves_last rest path x hx
  | .node bi n kids rest, path, x, hx => by
    simp only [leaves, List.mem_append] at hx
    rcases hx with hx | hx
    · exact leaves_last kids _ x hx
    · exact leaves_last rest path x hx

theorem PlainPaths.leaves {paths : List (List BoxType)} (h : PlainPaths paths) {B : Boxes} {isRoot : Bool} {ctx : Ctx} {pos : Nat}
    {path : List BoxType} (hu : B.Unknown isRoot ctx) : ∀ x ∈ leaves path (B.forest isRoot ctx pos), ¬ AskedBelow paths x.1 := by
  rintro x hx ⟨-, a, b, hq, -, hp⟩
  have h1 := leaves_raw B isRoot ctx pos path hu x hx
  have h2 := leaves_last _ _ x hx
  rw [hasPattern_exact (fun t ht => h.any _ hq t (List.mem_append.2 (.inl ht)))] at hp
  rw [← hp] at h2
  rw [h.known _ hq _ (List.mem_append.2 (.inl h2))] at h1
  cases h1

theorem PlainPaths.vals {paths : List (List BoxType)} (h : PlainPaths paths) : ∀ (B : Boxes) (ctx : Ctx) (pos : Nat)
    (parent : Option BoxInfo) (path : List BoxType), B.Unknown false ctx →
    (((B.forest false ctx pos).boxes parent path).filter fun x => decide (Asked paths x.2.1)).map (·.2.2) =
      ((B.vals ctx pos path).filter fun x => paths.contains x.1).map (·.2.1)
  | .nil, _, _, _, _, _ => rfl
  | .raw start p rest, ctx, pos, parent, path, hu => by
    simp only [Boxes.forest, Forest.boxes, Boxes.vals]
    rw [List.filter_cons_of_neg, PlainPaths.vals h rest _ _ _ _ hu.2]
    simp only [decide_eq_true_eq, h.asked]
    intro hc
    have := h.known _ hc start.type (by simp [Boxes.info]) ctx
    rw [hu.1] at this
    cases this
  | .box start bd sv kids rest, ctx, pos, parent, path, hu => by
    simp only [Boxes.forest, Forest.boxes, Boxes.vals]
    have h1 := PlainPaths.vals h kids (Boxes.kidsCtx false ctx start sv)
      (pos + (Form.of start).len + (bitsBytes (Spec.layout bd (Boxes.ownCtx false ctx start.type sv) sv)).length)
      (some (Boxes.info start pos ((Form.of start).len + ((bitsBytes (Spec.layout bd (Boxes.ownCtx false ctx start.type sv) sv)).length +
        (kids.ser false (Boxes.kidsCtx false ctx start sv)).length)) (Boxes.ownCtx false ctx start.type sv))) (path ++ [start.type]) hu.1
    have h2 := PlainPaths.vals h rest (Boxes.restCtx false ctx start sv) (pos + ((Form.of start).len +
      ((bitsBytes (Spec.layout bd (Boxes.ownCtx false ctx start.type sv) sv)).length +
        (kids.ser false (Boxes.kidsCtx false ctx start sv)).length))) parent path hu.2
    simp only [List.filter_cons, List.filter_append]
    have h3 : decide (Asked paths (path ++ [start.type])) = paths.contains (path ++ [start.type]) := by
      rw [Bool.eq_iff_iff, decide_eq_true_eq, h.asked, List.contains_iff_mem]
    simp only [show (Boxes.info start pos ((Form.of start).len + ((bitsBytes (Spec.layout bd (Boxes.ownCtx false ctx start.type sv) sv)).length +
        (kids.ser false (Boxes.kidsCtx false ctx start sv)).length)) (Boxes.ownCtx false ctx start.type sv)).type = start.type from rfl, h3]
    cases paths.contains (path ++ [start.type])
    · simp only [Bool.false_eq_true, if_false, List.map_append, h1, h2]
    · simp only [if_true, List.map_cons, List.map_append, h1, h2]

/-! ## Contexts -/

/-- `c` differs from `c0` at most in things that do not matter at this path -/
structure Near (c0 : Ctx) (path : List BoxType) (c : Ctx) : Prop where
  ilst : c.underIlst = false
  ilstMeta : c0.underIlstMeta = c.underIlstMeta
  ilstFree : c0.underIlstFreeMeta = c.underIlstFreeMeta
  udta : c0.underUdta = c.underUdta
  qt : c0.isQuickTimeCompatible = c.isQuickTimeCompatible
  wave : tWave ∉ path → c0.underWave = c.underWave

theorem near_own {c0 c : Ctx} {path : List BoxType} (h : Near c0 path c) (t : BoxType) (sv : SV) :
    Near c0 path (Boxes.ownCtx false c t sv) := by
  unfold Boxes.ownCtx
  rw [if_neg (by simp)]
  split
  · exact ⟨h.1, h.2, h.3, h.4, h.5, h.6⟩
  · exact h

theorem near_rest {c0 c : Ctx} {path : List BoxType} (h : Near c0 path c) (start : BoxInfo) (sv : SV) :
    Near c0 path (Boxes.restCtx false c start sv) := by
  have ho := near_own h start.type sv
  unfold Boxes.restCtx nextCtx
  simp only
  have hq : Near c0 path (if (Boxes.info start 0 0 (Boxes.ownCtx false c start.type sv)).ctx.isQuickTimeCompatible = true then
      { c with isQuickTimeCompatible := true } else c) := by
    split
    · next e =>
      have e : (Boxes.ownCtx false c start.type sv).isQuickTimeCompatible = true := e
      exact ⟨h.1, h.2, h.3, h.4, by rw [ho.5]; exact e, h.6⟩
    · exact h
  generalize (if (Boxes.info start 0 0 (Boxes.ownCtx false c start.type sv)).ctx.isQuickTimeCompatible = true then
      { c with isQuickTimeCompatible := true } else c) = c' at hq ⊢
  split
  · exact ⟨hq.1, hq.2, hq.3, hq.4, hq.5, hq.6⟩
  · exact hq

theorem near_kids {c0 c : Ctx} {path : List BoxType} (h : Near c0 path c) (start : BoxInfo) (sv : SV) (h1 : start.type ≠ tIlst)
    (h2 : start.type ≠ tUdta) : Near c0 (path ++ [start.type]) (Boxes.kidsCtx false c start sv) := by
  have ho := near_own h start.type sv
  unfold Boxes.kidsCtx childCtx
  generalize Boxes.ownCtx false c start.type sv = own at ho ⊢
  by_cases e : start.type = tWave
  · rw [if_pos (show (Boxes.info start 0 0 own).type = tWave from e)]
    exact ⟨ho.1, ho.2, ho.3, ho.4, ho.5, fun hn => absurd (by rw [e]; simp) hn⟩
  rw [if_neg (show ¬ (Boxes.info start 0 0 own).type = tWave from e), if_neg (show ¬ (Boxes.info start 0 0 own).type = tIlst from h1),
    if_neg (fun hc => by rw [show (Boxes.info start 0 0 own).ctx.underIlst = false from ho.1] at hc; cases hc.1),
    if_neg (show ¬ (Boxes.info start 0 0 own).type = tUdta from h2)]
  exact ⟨ho.1, ho.2, ho.3, ho.4, ho.5, fun hn => ho.6 (fun hc => hn (List.mem_append.2 (.inl hc)))⟩

theorem PlainPaths.alike {paths : List (List BoxType)} (h : PlainPaths paths) {c0 : Ctx} (hc : c0.underIlst = false) :
    ∀ (B : Boxes) (ctx : Ctx) (pos : Nat) (path : List BoxType), ((∀ t ∈ path, t ≠ tIlst ∧ t ≠ tUdta) → Near c0 path ctx) →
    ∀ x ∈ B.vals ctx pos path, x.1 ∈ paths → Ctx.Alike x.2.1.type c0 x.2.1.ctx
  | .nil, _, _, _, _, x, hx, _ => by simp [Boxes.vals] at hx
  | .raw start p rest, ctx, pos, path, hn, x, hx, hp => PlainPaths.alike h hc rest ctx _ path hn x hx hp
  | .box start bd sv kids rest, ctx, pos, path, hn, x, hx, hp => by
    simp only [Boxes.vals, List.mem_cons, List.mem_append] at hx
    rcases hx with rfl | hx | hx
    · have hcl := h.clean _ hp
      have hnear := near_own (hn fun t ht => hcl t (List.mem_append.2 (.inl ht))) start.type sv
      have hw : start.type ∈ Mp4.audioTypes → tWave ∉ path := fun ha hw =>
        h.wave _ hp (List.mem_append.2 (.inl hw)) start.type (by simp) ha
      refine ⟨hc.trans hnear.1.symm, hnear.2, hnear.3, hnear.4, fun e => ?_, fun _ => hnear.5, fun ha _ => hnear.6 (hw ha)⟩
      have e : (Boxes.ownCtx false ctx start.type sv).underIlst = true := e
      rw [hnear.1] at e
      cases e
    · refine PlainPaths.alike h hc kids _ _ (path ++ [start.type]) (fun hcl => ?_) x hx hp
      have h1 := hcl start.type (by simp)
      exact near_kids (hn fun t ht => hcl t (List.mem_append.2 (.inl ht))) start sv h1.1 h1.2
    · exact PlainPaths.alike h hc rest _ _ path (fun hcl => near_rest (hn hcl) start sv) x hx hp

/-! ## Payloads below a box -/

/-- `ReadPayload` gives these fields -/
def Reads (d : Bytes) (l : List (BoxInfo × BoxDef × SV)) : Prop :=
  ∀ x ∈ l, ∀ p0, ∃ n p, readPayloadP BoxMap.std d x.1 p0 = (.ok (⟨x.2.1, x.1.type, x.2.2⟩, n), p)

theorem payloads_below (hd : d.length ≤ 2 ^ 48) {paths : List (List BoxType)} (h : PlainPaths paths) {bi : BoxInfo} {n : Nat} {kids : Boxes}
    {restF : Forest} {isRoot : Bool} {path : List BoxType} {ctx : Ctx} {pos total kpos : Nat}
    (hwf : (Forest.node bi n (kids.forest false (childCtx bi) kpos) restF).WF d isRoot path ctx pos total)
    (hu : kids.Unknown false (childCtx bi)) (hr : Reads d (kids.fields false (childCtx bi) kpos)) (hi : bi.ctx.underIlst = false)
    (ht : bi.type ≠ tFtyp ∧ bi.type ≠ tKeys ∧ bi.type ≠ ⟨0, 0, 0, 0⟩ ∧ bi.type ≠ tWave ∧ bi.type ≠ tIlst ∧ bi.type ≠ tUdta)
    (fuel : Nat) (hf : (kids.forest false (childCtx bi) kpos).count < fuel) (p0 : Nat) :
    ∃ l p', extractBoxesWithPayload BoxMap.std d fuel (some bi) paths p0 = (.ok l, p') ∧
      l.map (fun x => (x.1.type, x.2)) = (kids.atPaths paths).map fun x => (x.1.type, x.2) := by
  have he := extract_below_exact_partial hd bi n (kids.forest false (childCtx bi) kpos) restF isRoot path ctx pos total hwf ht.1 ht.2.1 ht.2.2.1
    paths h.ne (h.leaves hu) fuel hf p0
  have hcc : childCtx bi = bi.ctx := by
    unfold childCtx
    rw [if_neg ht.2.2.2.1, if_neg ht.2.2.2.2.1, if_neg (by rw [hi]; simp), if_neg ht.2.2.2.2.2]
  have hv := h.vals kids (childCtx bi) kpos none [] hu
  have hl : askedBoxes paths (kids.forest false (childCtx bi) kpos) =
      (((kids.vals (childCtx bi) kpos []).filter fun x => paths.contains x.1).map (·.2)).map (·.1) := by
    rw [List.map_map]
    exact hv
  have hrun := (extract_payload_partial (d := d) fuel (some bi) paths p0).2
    (((kids.vals (childCtx bi) kpos []).filter fun x => paths.contains x.1).map (·.2)) (some bi)
  cases hx : extractBoxes BoxMap.std d fuel (some bi) paths p0 with
  | mk o p1 =>
  rw [hx] at he hrun
  simp only at he
  subst he
  rw [hl] at hrun
  obtain ⟨p', e⟩ := hrun p1 rfl
    (by
      intro x hx
      obtain ⟨y, hy, rfl⟩ := List.mem_map.1 hx
      rw [List.mem_filter, List.contains_iff_mem] at hy
      refine h.alike (c0 := bi.ctx) hi kids (childCtx bi) kpos [] (fun _ => ?_) y hy.1 hy.2
      rw [hcc]
      exact ⟨hi, rfl, rfl, rfl, rfl, fun _ => rfl⟩)
    (by
      intro x hx p0
      obtain ⟨y, hy, rfl⟩ := List.mem_map.1 hx
      rw [List.mem_filter] at hy
      obtain ⟨h1, h2⟩ := Boxes.vals_fields kids _ _ _ y hy.1
      obtain ⟨n, p, e⟩ := hr _ h1 p0
      refine ⟨n, p, e.trans ?_⟩
      simp only [← h2])
  refine ⟨_, p', e, ?_⟩
  unfold Boxes.atPaths
  rw [← Boxes.vals_inside kids (childCtx bi) kpos [], List.filter_map, List.map_map, List.map_map, List.map_map]
  refine List.map_congr_left fun x hx => ?_
  rw [List.mem_filter] at hx
  simp only [Function.comp, (Boxes.vals_fields kids _ _ _ x hx.1).2]

/-! ## Tracks and segments -/

theorem collect_congr : ∀ {l l' : List (BoxInfo × BoxVal)} (f : Found),
    l.map (fun x => (x.1.type, x.2)) = l'.map (fun x => (x.1.type, x.2)) → collect f l = collect f l'
  | [], [], _, _ => rfl
  | [], _ :: _, _, h => by simp at h
  | _ :: _, [], _, h => by simp at h
  | (a, v) :: l, (b, w) :: l', f, h => by
    simp only [List.map_cons, List.cons.injEq, Prod.mk.injEq] at h
    obtain ⟨⟨h1, h2⟩, h3⟩ := h
    unfold collect
    rw [h1, h2]
    cases collectOne f b.type w with
    | none => rfl
    | some g => exact collect_congr g h3

theorem collectFrag_congr : ∀ {l l' : List (BoxInfo × BoxVal)} (f : FoundFrag),
    l.map (fun x => (x.1.type, x.2)) = l'.map (fun x => (x.1.type, x.2)) → collectFrag f l = collectFrag f l'
  | [], [], _, _ => rfl
  | [], _ :: _, _, h => by simp at h
  | _ :: _, [], _, h => by simp at h
  | (a, v) :: l, (b, w) :: l', f, h => by
    simp only [List.map_cons, List.cons.injEq, Prod.mk.injEq] at h
    obtain ⟨⟨h1, h2⟩, h3⟩ := h
    unfold collectFrag
    rw [h1, h2]
    generalize (if b.type = tTfhd then _ else _ : Option FoundFrag) = r
    cases r with
    | none => rfl
    | some g => exact collectFrag_congr g h3

theorem plain_types : ∀ t ∈ probePaths.flatten ++ trakPaths.flatten ++ moofPaths.flatten, ∃ name,
    (BoxMap.std t).map (fun bd => (bd.goName, bd.target.isNone)) = [(name, true)] := by
  have h : ∀ t ∈ probePaths.flatten ++ trakPaths.flatten ++ moofPaths.flatten,
      (BoxMap.std t).map (fun bd => (bd.goName, bd.target.isNone)) = [(((BoxMap.std t).map BoxDef.goName).headD "", true)] := by
    decide +kernel
  exact fun t ht => ⟨_, h t ht⟩

theorem plain_known {t : BoxType} (ht : t ∈ probePaths.flatten ++ trakPaths.flatten ++ moofPaths.flatten) (ctx : Ctx) :
    BoxMap.std.isSupported t ctx = true := by
  obtain ⟨name, h⟩ := plain_types t ht
  obtain ⟨bd, e, -⟩ := lookup_single h ctx
  unfold BoxMap.isSupported
  rw [e]
  rfl

theorem plain_trak : PlainPaths trakPaths :=
  ⟨by decide +kernel, by decide +kernel,
    fun q hq t ht ctx => plain_known (List.mem_append.2 (.inl (List.mem_append.2 (.inr (List.mem_flatten.2 ⟨q, hq, ht⟩))))) ctx,
    by decide +kernel, by decide +kernel⟩

theorem plain_moof : PlainPaths moofPaths :=
  ⟨by decide +kernel, by decide +kernel,
    fun q hq t ht ctx => plain_known (List.mem_append.2 (.inr (List.mem_flatten.2 ⟨q, hq, ht⟩))) ctx,
    by decide +kernel, by decide +kernel⟩

theorem plain_probe : PlainPaths probePaths :=
  ⟨by decide +kernel, by decide +kernel,
    fun q hq t ht ctx => plain_known (List.mem_append.2 (.inl (List.mem_append.2 (.inl (List.mem_flatten.2 ⟨q, hq, ht⟩))))) ctx,
    by decide +kernel, by decide +kernel⟩

/-! ## Computations -/

theorem probeTrak_run {fuel : Nat} {bi : BoxInfo} {kids : Boxes}
    (h : ∀ p, ∃ l p', extractBoxesWithPayload BoxMap.std d fuel (some bi) trakPaths p = (.ok l, p') ∧
      l.map (fun x => (x.1.type, x.2)) = (kids.atPaths trakPaths).map fun x => (x.1.type, x.2)) (p : Nat) :
    (probeTrak BoxMap.std d fuel bi p).1 = kids.track := by
  obtain ⟨l, p', e1, e2⟩ := h p
  unfold probeTrak Boxes.track
  rw [M.bind_ok e1, collect_congr {} e2]
  cases collect {} (kids.atPaths trakPaths) with
  | none => rfl
  | some f => rfl

theorem probeMoof_run {fuel : Nat} {bi : BoxInfo} {kids : Boxes}
    (h : ∀ p, ∃ l p', extractBoxesWithPayload BoxMap.std d fuel (some bi) moofPaths p = (.ok l, p') ∧
      l.map (fun x => (x.1.type, x.2)) = (kids.atPaths moofPaths).map fun x => (x.1.type, x.2)) (p : Nat) :
    (probeMoof BoxMap.std d fuel bi p).1 = kids.segment bi.offset := by
  obtain ⟨l, p', e1, e2⟩ := h p
  unfold probeMoof Boxes.segment
  rw [M.bind_ok e1, collectFrag_congr {} e2]
  cases collectFrag {} (kids.atPaths moofPaths) with
  | none => rfl
  | some f => rfl

theorem unmarshalAt_run {bd : BoxDef} {bi : BoxInfo} {v : BoxVal} {n p p' : Nat} (hb : BoxMap.std.getBoxDef bi.type bi.ctx = some bd)
    (h : readPayloadP BoxMap.std d bi p = (.ok (v, n), p')) : unmarshalAt d bd bi p = (.ok v.sv, p') := by
  unfold readPayloadP at h
  obtain ⟨a, s1, e1, h⟩ := bind_ok_inv h
  unfold unmarshalAt
  rw [M.bind_ok e1]
  unfold BoxMap.unmarshalAny BoxMap.new at h
  rw [hb] at h
  simp only at h
  cases e2 : unmarshalBox bd d bi.ctx (sub64 bi.size bi.headerSize) bd.fields.zero s1 with
  | mk o q =>
  rw [e2] at h
  rw [M.bind_run, e2]
  cases o with
  | ok r =>
    simp only [Prod.mk.injEq, Out.ok.injEq] at h
    obtain ⟨⟨h1, -⟩, h2⟩ := h
    rw [← h1, ← h2]
    rfl
  | err e => cases h
  | panic => cases h
  | hang => cases h

theorem std_mvhd_def (ctx : Ctx) : BoxMap.std.getBoxDef tMvhd ctx = some Cat.bdMvhd := by
  refine std_def (by decide +kernel) ?_
  unfold Cat.allDefs
  simp only [List.forall_mem_cons]
  repeat' apply And.intro
  all_goals first
    | (intro _; rfl)
    | (intro _; trivial)
    | (intro h; exact absurd h (by decide))
    | (intro x hx; exact absurd hx (by simp))

/-- The outcome is `r`, or continues like `k`. -/
def Follow (r : Out (Bool × ProbeInfo)) (x : Out ProbeInfo × Nat) (k : Bool × ProbeInfo → Nat → Out ProbeInfo × Nat) : Prop :=
  match r with
  | .ok s => ∃ p, x = k s p
  | .err e => x.1 = .err e
  | .panic => x.1 = .panic
  | .hang => x.1 = .hang

/-- The loop of `Probe` over `bis ++ more` has the outcome `r`, or continues with `more`. -/
def After (d : Bytes) (fuel : Nat) (bis more : List BoxInfo) (s : Bool × ProbeInfo) (r : Out (Bool × ProbeInfo)) : Prop := ∀ p,
  Follow r (probeLoop BoxMap.std d fuel (bis ++ more) s.1 s.2 p) fun s' p' => probeLoop BoxMap.std d fuel more s'.1 s'.2 p'

theorem after_nil {fuel : Nat} {more : List BoxInfo} {s : Bool × ProbeInfo} : After d fuel [] more s (.ok s) := fun p => ⟨p, rfl⟩

theorem after_append {fuel : Nat} {bis bis' more : List BoxInfo} {s : Bool × ProbeInfo} {r : Out (Bool × ProbeInfo)}
    {k : Bool × ProbeInfo → Out (Bool × ProbeInfo)} (h1 : After d fuel bis (bis' ++ more) s r)
    (h2 : ∀ s', r = .ok s' → After d fuel bis' more s' (k s')) : After d fuel (bis ++ bis') more s (Boxes.andThen r k) := by
  intro p
  have h1 := h1 p
  rw [List.append_assoc]
  cases r with
  | err e => exact h1
  | panic => exact h1
  | hang => exact h1
  | ok s' =>
    obtain ⟨p', e⟩ := h1
    have h2 := h2 s' rfl p'
    simp only [Boxes.andThen]
    rw [e]
    exact h2

theorem after_map {α : Type} {fuel : Nat} {bis bis' more : List BoxInfo} {s : Bool × ProbeInfo} {x : Out α} {f : α → Bool × ProbeInfo}
    {g : α → Out (Bool × ProbeInfo)} (h1 : After d fuel bis (bis' ++ more) s (Boxes.andThen x fun a => .ok (f a)))
    (h2 : ∀ a, x = .ok a → After d fuel bis' more (f a) (g a)) : After d fuel (bis ++ bis') more s (Boxes.andThen x g) := by
  cases x with
  | ok a =>
    have := after_append (k := fun _ => g a) h1 (fun s' hs => by cases hs; exact h2 a rfl)
    exact this
  | err e => exact after_append (k := .ok) h1 (fun s' hs => by cases hs)
  | panic => exact after_append (k := .ok) h1 (fun s' hs => by cases hs)
  | hang => exact after_append (k := .ok) h1 (fun s' hs => by cases hs)

theorem after_one {fuel : Nat} {bi : BoxInfo} {more : List BoxInfo} {s : Bool × ProbeInfo} {r : Out (Bool × ProbeInfo)}
    (h : ∀ p, (probeOne BoxMap.std d fuel bi s.1 s.2 p).1 = r) : After d fuel [bi] more s r := by
  intro p
  have h := h p
  cases e : probeOne BoxMap.std d fuel bi s.1 s.2 p with
  | mk o q =>
  rw [e] at h
  simp only at h
  subst h
  have hl : probeLoop BoxMap.std d fuel (bi :: more) s.1 s.2 p =
      (probeOne BoxMap.std d fuel bi s.1 s.2 >>= fun x => probeLoop BoxMap.std d fuel more x.1 x.2) p := rfl
  rw [List.singleton_append, hl, M.bind_run, e]
  cases o with
  | ok s' => exact ⟨q, rfl⟩
  | err e => rfl
  | panic => rfl
  | hang => rfl

namespace Boxes

/-- the `mvhd` and `trak` boxes of a row -/
def movieBoxes : Boxes → Ctx → Nat → List BoxInfo
  | nil, _, _ => []
  | raw start p rest, ctx, pos => rest.movieBoxes ctx (pos + ((Form.of start).len + p.length))
  | box start bd sv kids rest, ctx, pos =>
    let own := ownCtx false ctx start.type sv
    let n := (bitsBytes (Spec.layout bd own sv)).length
    let body := kids.ser false (kidsCtx false ctx start sv)
    let size := (Form.of start).len + (n + body.length)
    (if start.type = tMvhd ∨ start.type = tTrak then [info start pos size own] else []) ++
      rest.movieBoxes (restCtx false ctx start sv) (pos + size)

/-- the boxes `Probe` asks for -/
def probeBoxes : Boxes → Ctx → Nat → List BoxInfo
  | nil, _, _ => []
  | raw start p rest, ctx, pos => rest.probeBoxes ctx (pos + ((Form.of start).len + p.length))
  | box start bd sv kids rest, ctx, pos =>
    let own := ownCtx true ctx start.type sv
    let n := (bitsBytes (Spec.layout bd own sv)).length
    let body := kids.ser false (kidsCtx true ctx start sv)
    let size := (Form.of start).len + (n + body.length)
    ((if start.type = tFtyp ∨ start.type = tMoov ∨ start.type = tMoof ∨ start.type = tMdat then [info start pos size own] else []) ++
      (if start.type = tMoov then kids.movieBoxes (kidsCtx true ctx start sv) (pos + (Form.of start).len + n) else [])) ++
      rest.probeBoxes (restCtx true ctx start sv) (pos + size)

end Boxes

theorem probe_mem1 (t : BoxType) : [t] ∈ probePaths ↔ t = tFtyp ∨ t = tMoov ∨ t = tMoof ∨ t = tMdat := by
  simp only [probePaths, List.mem_cons, List.cons.injEq, List.not_mem_nil, and_true, or_false, reduceCtorEq, and_false, false_or]

theorem probe_mem2 (t : BoxType) : [tMoov, t] ∈ probePaths ↔ t = tMvhd ∨ t = tTrak := by
  simp only [probePaths, List.mem_cons, List.cons.injEq, List.not_mem_nil, and_true, or_false, reduceCtorEq, and_false, false_or, true_and]

theorem boxes_movie : ∀ (K : Boxes) (ctx : Ctx) (pos : Nat) (parent : Option BoxInfo), K.Unknown false ctx →
    (((K.forest false ctx pos).boxes parent [tMoov]).filter fun x => decide (Asked probePaths x.2.1)).map (·.2.2) = K.movieBoxes ctx pos
  | .nil, _, _, _, _ => rfl
  | .raw start p rest, ctx, pos, parent, hu => by
    simp only [Boxes.forest, Forest.boxes, Boxes.movieBoxes]
    rw [List.filter_cons_of_neg, boxes_movie rest _ _ _ hu.2]
    simp only [decide_eq_true_eq, asked_probe]
    intro hc
    have := plain_probe.known _ hc start.type (by simp [Boxes.info]) ctx
    rw [hu.1] at this
    cases this
  | .box start bd sv kids rest, ctx, pos, parent, hu => by
    simp only [Boxes.forest, Forest.boxes, Boxes.movieBoxes]
    rw [List.filter_cons, List.filter_append]
    have hn := none_asked (paths := probePaths) (path := [tMoov] ++ [start.type])
      (F := kids.forest false (Boxes.kidsCtx false ctx start sv)
        (pos + (Form.of start).len + (bitsBytes (Spec.layout bd (Boxes.ownCtx false ctx start.type sv) sv)).length))
      (parent := some (Boxes.info start pos ((Form.of start).len + ((bitsBytes (Spec.layout bd (Boxes.ownCtx false ctx start.type sv) sv)).length +
        (kids.ser false (Boxes.kidsCtx false ctx start sv)).length)) (Boxes.ownCtx false ctx start.type sv)))
      (fun h => by have := askedBelow_probe (by simp) h; simp at this)
    have hr := boxes_movie rest (Boxes.restCtx false ctx start sv) (pos + ((Form.of start).len +
      ((bitsBytes (Spec.layout bd (Boxes.ownCtx false ctx start.type sv) sv)).length +
        (kids.ser false (Boxes.kidsCtx false ctx start sv)).length))) parent hu.2
    have ht : (Boxes.info start pos ((Form.of start).len + ((bitsBytes (Spec.layout bd (Boxes.ownCtx false ctx start.type sv) sv)).length +
        (kids.ser false (Boxes.kidsCtx false ctx start sv)).length)) (Boxes.ownCtx false ctx start.type sv)).type = start.type := rfl
    rw [ht, hn, List.nil_append]
    by_cases h : start.type = tMvhd ∨ start.type = tTrak
    · have hd : decide (Asked probePaths ([tMoov] ++ [start.type])) = true := decide_eq_true ((asked_probe _).2 ((probe_mem2 _).2 h))
      simp only [hd, if_pos h, if_true, List.map_cons, hr]
      rfl
    · have hd : decide (Asked probePaths ([tMoov] ++ [start.type])) = false :=
        decide_eq_false fun hc => h ((probe_mem2 _).1 ((asked_probe _).1 hc))
      simp only [hd, if_neg h, Bool.false_eq_true, if_false, hr]
      rfl

theorem boxes_probe : ∀ (B : Boxes) (ctx : Ctx) (pos : Nat), B.Unknown true ctx →
    askedBoxes probePaths (B.forest true ctx pos) = B.probeBoxes ctx pos
  | .nil, _, _, _ => rfl
  | .raw start p rest, ctx, pos, hu => by
    have hr := boxes_probe rest ctx (pos + ((Form.of start).len + p.length)) hu.2
    unfold askedBoxes at hr ⊢
    simp only [Boxes.forest, Forest.boxes, Boxes.probeBoxes]
    rw [List.filter_cons_of_neg, hr]
    simp only [decide_eq_true_eq, asked_probe]
    intro hc
    have := plain_probe.known _ hc start.type (by simp [Boxes.info]) ctx
    rw [hu.1] at this
    cases this
  | .box start bd sv kids rest, ctx, pos, hu => by
    have hr := boxes_probe rest (Boxes.restCtx true ctx start sv) (pos + ((Form.of start).len +
      ((bitsBytes (Spec.layout bd (Boxes.ownCtx true ctx start.type sv) sv)).length +
        (kids.ser false (Boxes.kidsCtx true ctx start sv)).length))) hu.2
    unfold askedBoxes at hr ⊢
    simp only [Boxes.forest, Forest.boxes, Boxes.probeBoxes]
    generalize hbi : Boxes.info start pos ((Form.of start).len + ((bitsBytes (Spec.layout bd (Boxes.ownCtx true ctx start.type sv) sv)).length +
        (kids.ser false (Boxes.kidsCtx true ctx start sv)).length)) (Boxes.ownCtx true ctx start.type sv) = bi
    have ht : bi.type = start.type := by rw [← hbi]; rfl
    rw [List.filter_cons, List.filter_append, ht]
    have hk : List.map (·.2.2) (((kids.forest false (Boxes.kidsCtx true ctx start sv) (pos + (Form.of start).len +
        (bitsBytes (Spec.layout bd (Boxes.ownCtx true ctx start.type sv) sv)).length)).boxes (some bi) ([] ++ [start.type])).filter
          fun x => decide (Asked probePaths x.2.1)) = (if start.type = tMoov then kids.movieBoxes (Boxes.kidsCtx true ctx start sv)
            (pos + (Form.of start).len + (bitsBytes (Spec.layout bd (Boxes.ownCtx true ctx start.type sv) sv)).length) else []) := by
      split
      · next h =>
        rw [h]
        exact boxes_movie kids _ _ _ hu.1
      · next h =>
        rw [none_asked (fun hc => by have := askedBelow_probe (by simp) hc; simp at this; exact h this)]
        rfl
    by_cases h : start.type = tFtyp ∨ start.type = tMoov ∨ start.type = tMoof ∨ start.type = tMdat
    · have hd : decide (Asked probePaths ([] ++ [start.type])) = true := decide_eq_true ((asked_probe _).2 ((probe_mem1 _).2 h))
      simp only [hd, if_pos h, if_true, List.map_cons, List.map_append, hr, hk]
      simp only [List.append_assoc, List.cons_append, List.nil_append]
    · have hd : decide (Asked probePaths ([] ++ [start.type])) = false :=
        decide_eq_false fun hc => h ((probe_mem1 _).1 ((asked_probe _).1 hc))
      simp only [hd, if_neg h, Bool.false_eq_true, if_false, List.map_append, hr, hk]
      simp only [List.nil_append]

/-! ## The loop -/

theorem andThen_ok {α : Type} (x : Out α) : Boxes.andThen x .ok = x := by cases x <;> rfl

theorem andThen_assoc {α β γ : Type} (x : Out α) (f : α → Out β) (g : β → Out γ) :
    Boxes.andThen (Boxes.andThen x f) g = Boxes.andThen x fun a => Boxes.andThen (f a) g := by cases x <;> rfl

/-- the result of `m`, then a value made from it -/
theorem map_run {α β : Type} {m : PM α} {r : Out α} {f : α → β} {p : Nat} (h : (m p).1 = r) :
    ((m >>= fun a => pure (f a)) p).1 = Boxes.andThen r fun a => .ok (f a) := by
  rw [M.bind_run]
  cases e : m p with
  | mk o q =>
  rw [e] at h
  simp only at h
  subst h
  cases o <;> rfl

theorem own_ilst {isRoot : Bool} {ctx : Ctx} {t : BoxType} {sv : SV} (h : ctx.underIlst = false) :
    (Boxes.ownCtx isRoot ctx t sv).underIlst = false := by
  unfold Boxes.ownCtx
  split
  · exact h
  · split <;> exact h

theorem rest_ilst {isRoot : Bool} {ctx : Ctx} {start : BoxInfo} {sv : SV} (h : ctx.underIlst = false) :
    (Boxes.restCtx isRoot ctx start sv).underIlst = false := by
  unfold Boxes.restCtx nextCtx
  simp only
  generalize (Boxes.info start 0 0 (Boxes.ownCtx isRoot ctx start.type sv)).ctx.isQuickTimeCompatible = q
  cases q <;> (simp only [Bool.false_eq_true, if_false, if_true]; split <;> exact h)

theorem keys_known (ctx : Ctx) : BoxMap.std.isSupported tKeys ctx = true := by
  obtain ⟨bd, e, -⟩ := lookup_single (m := BoxMap.std) (t := tKeys) (name := "Keys") (by decide +kernel) ctx
  unfold BoxMap.isSupported
  rw [e]
  rfl

theorem movie_run (hd : d.length ≤ 2 ^ 48) (fuel : Nat) : ∀ (K : Boxes) (ctx : Ctx) (pos total : Nat) (path : List BoxType),
    (K.forest false ctx pos).WF d false path ctx pos total → K.Unknown false ctx → Reads d (K.fields false ctx pos) →
    ctx.underIlst = false → (K.forest false ctx pos).count < fuel → ∀ (more : List BoxInfo) (seen : Bool) (info : ProbeInfo),
    After d fuel (K.movieBoxes ctx pos) more (seen, info) (Boxes.andThen (K.movie info) fun i => .ok (seen, i))
  | .nil, _, _, _, _, _, _, _, _, _, _, _, _ => after_nil
  | .raw start p rest, ctx, pos, total, path, hwf, hu, hr, hi, hf, more, seen, info => by
    obtain ⟨hpl, hrest⟩ := hwf
    have hnk : nextCtx ctx (Boxes.info start pos ((Form.of start).len + p.length) ctx) = ctx :=
      Boxes.nextCtx_same rfl (fun hc => by
        have hs := hu.1
        rw [show start.type = tKeys from hc, keys_known] at hs
        cases hs)
    rw [hnk] at hrest
    simp only [Boxes.forest, Forest.count] at hf
    exact movie_run hd fuel rest ctx _ _ path hrest hu.2 hr hi (by omega) more seen info
  | .box start bd sv kids rest, ctx, pos, total, path, hwf, hu, hr, hi, hf, more, seen, info => by
    have hwf' := hwf
    obtain ⟨hpl, hn, hk, hrest⟩ := hwf
    simp only [Boxes.forest, Forest.count] at hf
    simp only [Boxes.fields] at hr
    simp only [Boxes.forest] at hwf'
    simp only [Boxes.movieBoxes, Boxes.movie]
    rw [andThen_assoc]
    have hrest' := movie_run hd fuel rest (Boxes.restCtx false ctx start sv) _ _ path hrest hu.2
      (fun x hx => hr x (List.mem_cons_of_mem _ (List.mem_append.2 (.inr hx)))) (rest_ilst hi) (by omega) more seen
    have hhead := hr _ List.mem_cons_self
    have hkr : Reads d (kids.fields false (Boxes.kidsCtx false ctx start sv) _) :=
      fun x hx => hr x (List.mem_cons_of_mem _ (List.mem_append.2 (.inl hx)))
    generalize hown : Boxes.ownCtx false ctx start.type sv = own at *
    have hoi : own.underIlst = false := by rw [← hown]; exact own_ilst hi
    generalize hsz : (Form.of start).len + ((bitsBytes (Spec.layout bd own sv)).length +
      (kids.ser false (Boxes.kidsCtx false ctx start sv)).length) = size at *
    by_cases e1 : start.type = tMvhd
    · rw [if_pos (show start.type = tMvhd ∨ start.type = tTrak from .inl e1), if_pos e1]
      refine after_map (f := fun i => (seen, i)) (after_one fun p => ?_) (fun i _ => hrest' i)
      · unfold probeOne
        rw [if_neg (show ¬ (Boxes.info start pos size own).type = tFtyp by show ¬ start.type = _; rw [e1]; decide),
          if_neg (show ¬ (Boxes.info start pos size own).type = tMoov by show ¬ start.type = _; rw [e1]; decide),
          if_pos (show (Boxes.info start pos size own).type = tMvhd from e1)]
        obtain ⟨n, p', e⟩ := hhead p
        rw [M.bind_ok (unmarshalAt_run (bd := Cat.bdMvhd) (by
          show BoxMap.std.getBoxDef start.type own = _
          rw [e1]; exact std_mvhd_def _) e)]
        rfl
    rw [if_neg e1]
    by_cases e2 : start.type = tTrak
    · rw [if_pos (show start.type = tMvhd ∨ start.type = tTrak from .inr e2), if_pos e2]
      refine after_map (f := fun i => (seen, i)) (after_one fun p => ?_) (fun i _ => hrest' i)
      · unfold probeOne
        rw [if_neg (show ¬ (Boxes.info start pos size own).type = tFtyp by show ¬ start.type = _; rw [e2]; decide),
          if_neg (show ¬ (Boxes.info start pos size own).type = tMoov by show ¬ start.type = _; rw [e2]; decide),
          if_neg (show ¬ (Boxes.info start pos size own).type = tMvhd from e1),
          if_pos (show (Boxes.info start pos size own).type = tTrak from e2)]
        have hc : childCtx (Boxes.info start pos size own) = Boxes.kidsCtx false ctx start sv := by
          unfold Boxes.kidsCtx
          rw [hown]
          rfl
        rw [← hc] at hwf' hkr
        have hp := fun p => payloads_below hd plain_trak hwf' (by rw [hc]; exact hu.1) hkr hoi (by
          show start.type ≠ _ ∧ start.type ≠ _ ∧ start.type ≠ _ ∧ start.type ≠ _ ∧ start.type ≠ _ ∧ start.type ≠ _
          rw [e2]
          decide) fuel (by rw [hc]; omega) p
        rw [andThen_assoc]
        exact map_run (f := fun t => (seen, { info with tracks := info.tracks ++ [t] })) (probeTrak_run hp p)
    rw [if_neg e2, if_neg (fun h => h.elim e1 e2)]
    exact hrest' info

theorem summary_run (hd : d.length ≤ 2 ^ 48) (fuel : Nat) : ∀ (B : Boxes) (ctx : Ctx) (pos total : Nat),
    (B.forest true ctx pos).WF d true [] ctx pos total → B.Unknown true ctx → Reads d (B.fields true ctx pos) →
    ctx.underIlst = false → (B.forest true ctx pos).count < fuel → ∀ (more : List BoxInfo) (s : Bool × ProbeInfo),
    After d fuel (B.probeBoxes ctx pos) more s (B.summaryFrom ctx pos s)
  | .nil, _, _, _, _, _, _, _, _, _, _ => after_nil
  | .raw start p rest, ctx, pos, total, hwf, hu, hr, hi, hf, more, s => by
    obtain ⟨hpl, hrest⟩ := hwf
    have hnk : nextCtx ctx (Boxes.info start pos ((Form.of start).len + p.length) ctx) = ctx :=
      Boxes.nextCtx_same rfl (fun hc => by
        have hs := hu.1
        rw [show start.type = tKeys from hc, keys_known] at hs
        cases hs)
    rw [hnk] at hrest
    simp only [Boxes.forest, Forest.count] at hf
    exact summary_run hd fuel rest ctx _ _ hrest hu.2 hr hi (by omega) more s
  | .box start bd sv kids rest, ctx, pos, total, hwf, hu, hr, hi, hf, more, s => by
    have hwf' := hwf
    obtain ⟨hpl, hn, hk, hrest⟩ := hwf
    simp only [Boxes.forest, Forest.count] at hf
    simp only [Boxes.fields] at hr
    simp only [Boxes.forest] at hwf'
    simp only [Boxes.probeBoxes, Boxes.summaryFrom]
    have hrest' := summary_run hd fuel rest (Boxes.restCtx true ctx start sv) _ _ hrest hu.2
      (fun x hx => hr x (List.mem_cons_of_mem _ (List.mem_append.2 (.inr hx)))) (rest_ilst hi) (by omega) more
    refine after_append ?_ (fun s' _ => hrest' s')
    have hhead := hr _ List.mem_cons_self
    have hkr : Reads d (kids.fields false (Boxes.kidsCtx true ctx start sv) _) :=
      fun x hx => hr x (List.mem_cons_of_mem _ (List.mem_append.2 (.inl hx)))
    generalize rest.probeBoxes _ _ ++ more = more'
    generalize hown : Boxes.ownCtx true ctx start.type sv = own at *
    have hoi : own.underIlst = false := by rw [← hown]; exact own_ilst hi
    generalize hsz : (Form.of start).len + ((bitsBytes (Spec.layout bd own sv)).length +
      (kids.ser false (Boxes.kidsCtx true ctx start sv)).length) = size at *
    have hc : childCtx (Boxes.info start pos size own) = Boxes.kidsCtx true ctx start sv := by
      unfold Boxes.kidsCtx
      rw [hown]
      rfl
    obtain ⟨seen, info⟩ := s
    unfold Boxes.summaryOne
    by_cases e1 : start.type = tFtyp
    · rw [if_pos (show start.type = tFtyp ∨ _ from .inl e1), if_neg (show ¬ start.type = tMoov by rw [e1]; decide), if_pos e1,
        List.append_nil]
      refine after_one fun p => ?_
      unfold probeOne
      rw [if_pos (show (Boxes.info start pos size own).type = tFtyp from e1)]
      obtain ⟨n, p', e⟩ := hhead p
      rw [M.bind_ok (unmarshalAt_run (bd := Cat.bdFtyp) (by
        show BoxMap.std.getBoxDef start.type own = _
        rw [e1]; exact std_ftyp_def _) e)]
      rfl
    rw [if_neg e1]
    by_cases e2 : start.type = tMoov
    · rw [if_pos (show start.type = tFtyp ∨ start.type = tMoov ∨ _ from .inr (.inl e2)), if_pos e2, if_pos e2]
      have hcc : (childCtx (Boxes.info start pos size own)).underIlst = false := by
        have : childCtx (Boxes.info start pos size own) = own := by
          unfold childCtx
          rw [if_neg (show ¬ (Boxes.info start pos size own).type = tWave by show ¬ start.type = _; rw [e2]; decide),
            if_neg (show ¬ (Boxes.info start pos size own).type = tIlst by show ¬ start.type = _; rw [e2]; decide),
            if_neg (fun hc => by rw [show (Boxes.info start pos size own).ctx.underIlst = false from hoi] at hc; cases hc.1),
            if_neg (show ¬ (Boxes.info start pos size own).type = tUdta by show ¬ start.type = _; rw [e2]; decide)]
          rfl
        rw [this]
        exact hoi
      rw [hc] at hk
      have hm := movie_run hd fuel kids (Boxes.kidsCtx true ctx start sv) _ _ _ hk hu.1 hkr (by rw [← hc]; exact hcc) (by omega) more' seen
        { info with fastStart := !seen }
      refine after_map (x := .ok ()) (f := fun _ => (seen, { info with fastStart := !seen })) (after_one fun p => ?_) (fun _ _ => hm)
      unfold probeOne
      rw [if_neg (show ¬ (Boxes.info start pos size own).type = tFtyp from e1),
        if_pos (show (Boxes.info start pos size own).type = tMoov from e2)]
      rfl
    rw [if_neg e2, if_neg e2, List.append_nil]
    by_cases e3 : start.type = tMoof
    · rw [if_pos (show start.type = tFtyp ∨ start.type = tMoov ∨ start.type = tMoof ∨ _ from .inr (.inr (.inl e3))), if_pos e3]
      refine after_one fun p => ?_
      unfold probeOne
      rw [if_neg (show ¬ (Boxes.info start pos size own).type = tFtyp from e1),
        if_neg (show ¬ (Boxes.info start pos size own).type = tMoov from e2),
        if_neg (show ¬ (Boxes.info start pos size own).type = tMvhd by show ¬ start.type = _; rw [e3]; decide),
        if_neg (show ¬ (Boxes.info start pos size own).type = tTrak by show ¬ start.type = _; rw [e3]; decide),
        if_pos (show (Boxes.info start pos size own).type = tMoof from e3)]
      rw [← hc] at hwf' hkr
      have hp := fun p => payloads_below hd plain_moof hwf' (by rw [hc]; exact hu.1) hkr hoi (by
        show start.type ≠ _ ∧ start.type ≠ _ ∧ start.type ≠ _ ∧ start.type ≠ _ ∧ start.type ≠ _ ∧ start.type ≠ _
        rw [e3]
        decide) fuel (by rw [hc]; omega) p
      exact map_run (f := fun t => (seen, { info with segments := info.segments ++ [t] })) (probeMoof_run hp p)
    rw [if_neg e3]
    by_cases e4 : start.type = tMdat
    · rw [if_pos (show start.type = tFtyp ∨ start.type = tMoov ∨ start.type = tMoof ∨ _ from .inr (.inr (.inr e4))), if_pos e4]
      refine after_one fun p => ?_
      unfold probeOne
      rw [if_neg (show ¬ (Boxes.info start pos size own).type = tFtyp from e1),
        if_neg (show ¬ (Boxes.info start pos size own).type = tMoov from e2),
        if_neg (show ¬ (Boxes.info start pos size own).type = tMvhd by show ¬ start.type = _; rw [e4]; decide),
        if_neg (show ¬ (Boxes.info start pos size own).type = tTrak by show ¬ start.type = _; rw [e4]; decide),
        if_neg (show ¬ (Boxes.info start pos size own).type = tMoof from e3),
        if_pos (show (Boxes.info start pos size own).type = tMdat from e4)]
      rfl
    rw [if_neg e4, if_neg (fun h => h.elim e1 fun h => h.elim e2 fun h => h.elim e3 e4)]
    exact after_nil

end Mp4
