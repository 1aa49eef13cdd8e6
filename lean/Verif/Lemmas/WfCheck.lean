import Verif.Props.Forest

/-!
# Deciding that a concrete file is well formed

Used for concrete files only; files with `ftyp` or `keys` boxes are left out.
-/

namespace Mp4.Props

open Mp4

variable {d : Bytes}

/-- the conditions of `Forest.Placed` -/
def placedCheck (d : Bytes) (isRoot : Bool) (ctx : Ctx) (pos total : Nat) (bi : BoxInfo) : Bool :=
  decide (bi.offset = pos) && decide (isoHeader (d.drop pos) = .box bi.size bi.headerSize bi.type bi.extendToEOF) &&
  decide (bi.headerSize ≤ bi.size) && decide (pos + bi.size ≤ d.length) && (isRoot || decide (bi.size ≤ total)) &&
  decide (bi.ctx = ctx) && decide (bi.type ≠ tFtyp) && decide (bi.type ≠ tKeys)

/-- the conditions of `Forest.WF` -/
def wfCheck (d : Bytes) : Forest → Bool → Ctx → Nat → Nat → Bool
  | .nil, isRoot, _, pos, total => if isRoot then decide (pos = d.length) else decide (total = 0)
  | .leaf bi rest, isRoot, ctx, pos, total =>
    placedCheck d isRoot ctx pos total bi && wfCheck d rest isRoot (nextCtx ctx bi) (pos + bi.size) (total - bi.size)
  | .node bi n kids rest, isRoot, ctx, pos, total =>
    placedCheck d isRoot ctx pos total bi &&
    (match (BoxMap.std.unmarshalAny d bi.type (sub64 bi.size bi.headerSize) bi.ctx (bi.offset + bi.headerSize)).1 with
      | .ok r => r.2 == n
      | _ => false) &&
    wfCheck d kids false (childCtx bi) (pos + bi.headerSize + n) (bi.size - bi.headerSize - n) &&
    wfCheck d rest isRoot (nextCtx ctx bi) (pos + bi.size) (total - bi.size)

theorem placed_of_check {isRoot : Bool} {path : List BoxType} {ctx : Ctx} {pos total : Nat} {bi : BoxInfo}
    (h : placedCheck d isRoot ctx pos total bi = true) : Forest.Placed d isRoot path ctx pos total bi := by
  simp only [placedCheck, Bool.and_eq_true, Bool.or_eq_true, decide_eq_true_eq] at h
  obtain ⟨⟨⟨⟨⟨⟨⟨h1, h2⟩, h3⟩, h4⟩, h5⟩, h6⟩, h7⟩, h8⟩ := h
  exact ⟨h1, h2, h3, h4, h5, ownCtx_plain h6 h7 h8⟩

theorem wf_of_check : ∀ {F : Forest} {isRoot : Bool} {path : List BoxType} {ctx : Ctx} {pos total : Nat},
    wfCheck d F isRoot ctx pos total = true → F.WF d isRoot path ctx pos total
  | .nil, true, _, _, _, _, h => by simpa [wfCheck, Forest.WF] using h
  | .nil, false, _, _, _, _, h => by
    simp only [wfCheck, Forest.WF, Bool.false_eq_true, if_false, decide_eq_true_eq] at *
    exact .inl h
  | .leaf bi rest, _, _, _, _, _, h => by
    unfold wfCheck at h
    rw [Bool.and_eq_true] at h
    exact ⟨placed_of_check h.1, wf_of_check h.2⟩
  | .node bi n kids rest, _, _, _, _, _, h => by
    unfold wfCheck at h
    rw [Bool.and_eq_true, Bool.and_eq_true, Bool.and_eq_true] at h
    obtain ⟨⟨⟨h1, h2⟩, h3⟩, h4⟩ := h
    exact ⟨placed_of_check h1, payloadN_of h2, wf_of_check h3, wf_of_check h4⟩

end Mp4.Props
