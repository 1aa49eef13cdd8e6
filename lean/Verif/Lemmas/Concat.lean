import Verif.Spec.Concat
import Verif.Spec.Extract
import Verif.Lemmas.WriteRead

/-!
# Lemmas on rows of boxes behind one another
-/

namespace Mp4

namespace Forest

/-- one row behind the other -/
def append : Forest → Forest → Forest
  | nil, more => more
  | leaf bi rest, more => leaf bi (rest.append more)
  | node bi n kids rest, more => node bi n kids (rest.append more)

/-- the row `k` bytes later -/
def later (k : Nat) : Forest → Forest
  | nil => nil
  | leaf bi rest => leaf (bi.later k) (rest.later k)
  | node bi n kids rest => node (bi.later k) n (kids.later k) (rest.later k)

theorem boxes_append (parent : Option BoxInfo) (path : List BoxType) : ∀ A B : Forest,
    (A.append B).boxes parent path = A.boxes parent path ++ B.boxes parent path
  | nil, B => rfl
  | leaf bi rest, B => by simp only [append, boxes, boxes_append parent path rest B, List.cons_append]
  | node bi n kids rest, B => by simp only [append, boxes, boxes_append parent path rest B, List.cons_append, List.append_assoc]

theorem boxes_later (k : Nat) : ∀ (A : Forest) (parent : Option BoxInfo) (path : List BoxType),
    (A.later k).boxes (parent.map (BoxInfo.later k)) path = (A.boxes parent path).map (laterCall k)
  | nil, _, _ => rfl
  | leaf bi rest, parent, path => by
    simp only [later, boxes, boxes_later k rest parent path, List.map_cons]
    rfl
  | node bi n kids rest, parent, path => by
    have h1 := boxes_later k kids (some bi) (path ++ [bi.type])
    have h2 := boxes_later k rest parent path
    simp only [later, boxes, List.map_cons, List.map_append, ← h1, ← h2]
    rfl

theorem count_append : ∀ A B : Forest, (A.append B).count = A.count + B.count
  | nil, B => by simp only [append, count, Nat.zero_add]
  | leaf bi rest, B => by simp only [append, count, count_append rest B]; omega
  | node bi n kids rest, B => by simp only [append, count, count_append rest B]; omega

theorem count_later (k : Nat) : ∀ A : Forest, (A.later k).count = A.count
  | nil => rfl
  | leaf bi rest => by simp only [later, count, count_later k rest]
  | node bi n kids rest => by simp only [later, count, count_later k rest, count_later k kids]

theorem leaves_append (path : List BoxType) : ∀ A B : Forest,
    Props.leaves path (A.append B) = Props.leaves path A ++ Props.leaves path B
  | nil, B => rfl
  | leaf bi rest, B => by simp only [append, Props.leaves, leaves_append path rest B, List.cons_append]
  | node bi n kids rest, B => by simp only [append, Props.leaves, leaves_append path rest B, List.append_assoc]

theorem leaves_later (k : Nat) : ∀ (A : Forest) (path : List BoxType),
    (Props.leaves path (A.later k)).map (·.1) = (Props.leaves path A).map (·.1)
  | nil, _ => rfl
  | leaf bi rest, path => by
    have h := leaves_later k rest path
    simp only [later, Props.leaves, List.map_cons, h]
    rfl
  | node bi n kids rest, path => by
    have h := leaves_later k rest path
    have h2 := leaves_later k kids (path ++ [bi.type])
    simp only [later, Props.leaves, List.map_append, h]
    exact congrArg (· ++ _) h2

theorem asked_append (paths : List (List BoxType)) (A B : Forest) :
    Props.askedBoxes paths (A.append B) = Props.askedBoxes paths A ++ Props.askedBoxes paths B := by
  unfold Props.askedBoxes
  rw [boxes_append, List.filter_append, List.map_append]

theorem asked_later (paths : List (List BoxType)) (k : Nat) (A : Forest) :
    Props.askedBoxes paths (A.later k) = (Props.askedBoxes paths A).map (BoxInfo.later k) := by
  unfold Props.askedBoxes
  have h := boxes_later k A none []
  rw [Option.map_none] at h
  rw [h, List.filter_map, List.map_map, List.map_map]
  rfl

end Forest

namespace Boxes

theorem append_isNil : ∀ A B : Boxes, (A.append B).isNil = (A.isNil && B.isNil)
  | nil, _ => rfl
  | raw _ _ _, _ => rfl
  | box _ _ _ _ _, _ => rfl

theorem ser_append (B : Boxes) : ∀ (A : Boxes) (isRoot : Bool) (ctx : Ctx),
    (A.append B).ser isRoot ctx = A.ser isRoot ctx ++ B.ser isRoot (A.endCtx isRoot ctx)
  | nil, _, _ => rfl
  | raw start p rest, isRoot, ctx => by
    simp only [append, ser, endCtx, ser_append B rest, List.append_assoc]
  | box start bd sv kids rest, isRoot, ctx => by
    simp only [append, ser, endCtx, ser_append B rest, List.append_assoc]

theorem ser_length_raw (start : BoxInfo) (p : Bytes) (rest : Boxes) (isRoot : Bool) (ctx : Ctx) :
    ((raw start p rest).ser isRoot ctx).length = (Form.of start).len + p.length + (rest.ser isRoot ctx).length := by
  simp only [ser, List.length_append, Form.header_length]

theorem ser_length_box (start : BoxInfo) (bd : BoxDef) (sv : SV) (kids rest : Boxes) (isRoot : Bool) (ctx : Ctx) :
    ((box start bd sv kids rest).ser isRoot ctx).length =
      (Form.of start).len + ((bitsBytes (Spec.layout bd (ownCtx isRoot ctx start.type sv) sv)).length +
        (kids.ser false (kidsCtx isRoot ctx start sv)).length) + (rest.ser isRoot (restCtx isRoot ctx start sv)).length := by
  simp only [ser, List.length_append, Form.header_length]

theorem forest_append (B : Boxes) : ∀ (A : Boxes) (isRoot : Bool) (ctx : Ctx) (pos : Nat),
    (A.append B).forest isRoot ctx pos =
      (A.forest isRoot ctx pos).append (B.forest isRoot (A.endCtx isRoot ctx) (pos + (A.ser isRoot ctx).length))
  | nil, _, _, _ => rfl
  | raw start p rest, isRoot, ctx, pos => by
    simp only [append, forest, endCtx, forest_append B rest, Forest.append, ser_length_raw, Nat.add_assoc]
  | box start bd sv kids rest, isRoot, ctx, pos => by
    simp only [append, forest, endCtx, forest_append B rest, Forest.append, ser_length_box, Nat.add_assoc]

theorem fields_append (B : Boxes) : ∀ (A : Boxes) (isRoot : Bool) (ctx : Ctx) (pos : Nat),
    (A.append B).fields isRoot ctx pos =
      A.fields isRoot ctx pos ++ B.fields isRoot (A.endCtx isRoot ctx) (pos + (A.ser isRoot ctx).length)
  | nil, _, _, _ => rfl
  | raw start p rest, isRoot, ctx, pos => by
    simp only [append, fields, endCtx, fields_append B rest, ser_length_raw, Nat.add_assoc]
  | box start bd sv kids rest, isRoot, ctx, pos => by
    simp only [append, fields, endCtx, fields_append B rest, ser_length_box, Nat.add_assoc, List.append_assoc, List.cons_append]

theorem forest_later (k : Nat) : ∀ (B : Boxes) (isRoot : Bool) (ctx : Ctx) (pos : Nat),
    B.forest isRoot ctx (pos + k) = (B.forest isRoot ctx pos).later k
  | nil, _, _, _ => rfl
  | raw start p rest, isRoot, ctx, pos => by
    simp only [forest, Forest.later]
    rw [← forest_later k rest, Nat.add_right_comm]
    rfl
  | box start bd sv kids rest, isRoot, ctx, pos => by
    simp only [forest, Forest.later]
    rw [← forest_later k rest, ← forest_later k kids]
    rw [Nat.add_right_comm pos k, Nat.add_right_comm pos k, Nat.add_right_comm _ k]
    rfl

theorem fields_later (k : Nat) : ∀ (B : Boxes) (isRoot : Bool) (ctx : Ctx) (pos : Nat),
    B.fields isRoot ctx (pos + k) = (B.fields isRoot ctx pos).map fun x => (x.1.later k, x.2)
  | nil, _, _, _ => rfl
  | raw start p rest, isRoot, ctx, pos => by
    simp only [fields]
    rw [← fields_later k rest, Nat.add_right_comm]
  | box start bd sv kids rest, isRoot, ctx, pos => by
    simp only [fields, List.map_cons, List.map_append]
    rw [← fields_later k rest, ← fields_later k kids]
    rw [Nat.add_right_comm pos k, Nat.add_right_comm pos k, Nat.add_right_comm _ k]
    rfl

theorem ok_mono : ∀ (B : Boxes) (isRoot last : Bool) (ctx : Ctx), B.Ok isRoot false ctx → B.Ok isRoot last ctx
  | nil, _, _, _, _ => trivial
  | raw start p rest, isRoot, last, ctx, h => by
    obtain ⟨h1, h2, h3, h4, h5⟩ := h
    exact ⟨h1, fun h => absurd (h2 h).1 (by decide), h3, h4, ok_mono rest isRoot last ctx h5⟩
  | box start bd sv kids rest, isRoot, last, ctx, h => by
    obtain ⟨h1, h2, h3, h4, h5, h6⟩ := h
    exact ⟨h1, fun h => absurd (h2 h).1 (by decide), h3, h4, ok_mono kids _ _ _ h5, ok_mono rest _ _ _ h6⟩

theorem ok_append (B : Boxes) : ∀ (A : Boxes) (isRoot last : Bool) (ctx : Ctx), A.Ok isRoot false ctx →
    B.Ok isRoot last (A.endCtx isRoot ctx) → (A.append B).Ok isRoot last ctx
  | nil, _, _, _, _, hB => hB
  | raw start p rest, isRoot, last, ctx, h, hB => by
    obtain ⟨h1, h2, h3, h4, h5⟩ := h
    exact ⟨h1, fun h => absurd (h2 h).1 (by decide), h3, h4, ok_append B rest isRoot last ctx h5 hB⟩
  | box start bd sv kids rest, isRoot, last, ctx, h, hB => by
    obtain ⟨h1, h2, h3, h4, h5, h6⟩ := h
    exact ⟨h1, fun h => absurd (h2 h).1 (by decide), h3, h4, ok_mono kids _ _ _ h5, ok_append B rest _ _ _ h6 hB⟩

theorem unknown_append (B : Boxes) : ∀ (A : Boxes) (isRoot : Bool) (ctx : Ctx), A.Unknown isRoot ctx →
    B.Unknown isRoot (A.endCtx isRoot ctx) → (A.append B).Unknown isRoot ctx
  | nil, _, _, _, hB => hB
  | raw start p rest, isRoot, ctx, h, hB => ⟨h.1, unknown_append B rest isRoot ctx h.2 hB⟩
  | box start bd sv kids rest, isRoot, ctx, h, hB => ⟨h.1, unknown_append B rest isRoot _ h.2 hB⟩

theorem endCtx_neutral : ∀ (A : Boxes) (isRoot : Bool) (ctx : Ctx), A.Neutral → A.endCtx isRoot ctx = ctx
  | nil, _, _, _ => rfl
  | raw _ _ rest, isRoot, ctx, h => endCtx_neutral rest isRoot ctx h
  | box start bd sv kids rest, isRoot, ctx, ⟨h1, h2, h3⟩ => by
    have h0 : ownCtx isRoot ctx start.type sv = ctx := by
      unfold ownCtx
      rw [if_neg (fun h => h1 h.2), if_neg h2]
    have : restCtx isRoot ctx start sv = ctx := by
      unfold restCtx nextCtx
      rw [h0]
      rw [if_neg (show ¬ (info start 0 0 ctx).type = tKeys from h2)]
      split
      · next h =>
        have h : ctx.isQuickTimeCompatible = true := h
        cases ctx
        simp only at h
        rw [h]
      · rfl
    rw [endCtx, this]
    exact endCtx_neutral rest isRoot ctx h3

end Boxes

end Mp4
