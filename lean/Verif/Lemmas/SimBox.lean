import Verif.Lemmas.Sim
import Verif.Lemmas.Box

/-!
# `Unmarshal` on two streams that begin with the same bytes
-/

namespace Mp4

open Spec

variable {bd : BoxDef} {E : Nat} {d d' : Bytes}

theorem body_sim (hbd : bd ∈ Cat.allDefs) (ha : Agree E d d') (ctx : Ctx) (ps : Nat) (sv : SV) (pos : Nat)
    {r : Nat × SV} {pos' : Nat} (h : unmarshalBody bd d ctx ps sv pos = (.ok r, pos')) (hE : pos' ≤ E) :
    unmarshalBody bd d' ctx ps sv pos = (.ok r, pos') := by
  have hs := sim_top ha (dynSizes bd) bd.fields (bd.uenv d ctx ps) (some bd.cfo) none sv rfl
    (allDefs_static bd hbd).2.2.2.1
  unfold unmarshalBody at h ⊢
  cases hr : unmarshalFields (bd.uenv d ctx ps) true (some bd.cfo) bd.fields sv ⟨RSt.fresh pos, 0⟩ with
  | mk o st =>
    rw [hr] at h
    cases o with
    | ok sv' =>
      simp only at h
      obtain ⟨_, _, q⟩ := hs.ok _ _ _ (by simp [RSt.fresh]) hr
      have hp : pos' = st.r.pos := by
        split at h
        · cases h
        · split at h
          · cases h
          · cases h; rfl
      have q1 : unmarshalFields (bd.uenv d' ctx ps) true (some bd.cfo) bd.fields sv ⟨RSt.fresh pos, 0⟩ = _ := q (hp ▸ hE)
      rw [q1]
      exact h
    | err e => cases e <;> cases h
    | panic => cases h
    | hang => cases h

theorem body_sim_hang (hbd : bd ∈ Cat.allDefs) (ha : Agree E d d') (ctx : Ctx) (ps : Nat) (sv : SV) {pos : Nat}
    (hpos : pos ≤ d.length) (hE : d.length ≤ E) (h : (unmarshalBody bd d ctx ps sv pos).1 = .hang) :
    (unmarshalBody bd d' ctx ps sv pos).1 = .hang := by
  have hs := sim_top ha (dynSizes bd) bd.fields (bd.uenv d ctx ps) (some bd.cfo) none sv rfl
    (allDefs_static bd hbd).2.2.2.1
  unfold unmarshalBody at h ⊢
  have h1 : (unmarshalFields (bd.uenv d ctx ps) true (some bd.cfo) bd.fields sv ⟨RSt.fresh pos, 0⟩).1 = .hang := by
    cases hr : unmarshalFields (bd.uenv d ctx ps) true (some bd.cfo) bd.fields sv ⟨RSt.fresh pos, 0⟩ with
    | mk o st =>
      rw [hr] at h
      cases o with
      | ok sv' =>
        simp only at h
        split at h
        · cases h
        · split at h <;> cases h
      | err e => cases e <;> cases h
      | panic => cases h
      | hang => rfl
  have h2 : (unmarshalFields (bd.uenv d' ctx ps) true (some bd.cfo) bd.fields sv ⟨RSt.fresh pos, 0⟩).1 = .hang :=
    hs.hang _ (by simp [RSt.fresh]) hpos hE h1
  cases hr : unmarshalFields (bd.uenv d' ctx ps) true (some bd.cfo) bd.fields sv ⟨RSt.fresh pos, 0⟩ with
  | mk o st =>
    rw [hr] at h2
    simp only at h2
    subst h2
    rfl

/-- `BeforeUnmarshal` of `meta` looks at four bytes. -/
theorem metaBefore_sim (ha : Agree E d d') (sv : SV) {pos : Nat} (h4 : pos + 4 ≤ E) :
    metaBefore d' sv pos = metaBefore d sv pos := by
  unfold metaBefore
  rw [ha.slice h4]

theorem metaBefore_short (sv : SV) {pos : Nat} (h4 : d.length < pos + 4) :
    ∃ e p, metaBefore d sv pos = (.err e, p) := by
  have : ((d.drop pos).take 4).length < 4 := by
    rw [List.length_take, List.length_drop]; omega
  unfold metaBefore
  simp only
  by_cases h0 : ((d.drop pos).take 4).length = 0
  · rw [if_pos h0]; exact ⟨_, _, rfl⟩
  · rw [if_neg h0, if_pos this]; exact ⟨_, _, rfl⟩

theorem metaBefore_pos {sv : SV} {pos pos' : Nat} {r : Bool × SV} (h : metaBefore d sv pos = (.ok r, pos')) :
    pos' = pos := by
  unfold metaBefore at h
  simp only at h
  split at h
  · cases h
  · split at h
    · cases h
    · split at h <;> (cases h; rfl)

theorem box_sim (hbd : bd ∈ Cat.allDefs) (ha : Agree E d d') (ctx : Ctx) (ps : Nat) (dst : SV) {pos : Nat}
    (hm : bd.metaHook = true → pos + 4 ≤ E ∨ d.length < pos + 4)
    {r : Nat × SV} {pos' : Nat} (h : unmarshalBox bd d ctx ps dst pos = (.ok r, pos')) (hE : pos' ≤ E) :
    unmarshalBox bd d' ctx ps dst pos = (.ok r, pos') := by
  unfold unmarshalBox at h ⊢
  simp only at h ⊢
  cases hmh : bd.metaHook with
  | false =>
    simp only [hmh, Bool.false_eq_true, if_false] at h ⊢
    exact body_sim hbd ha ctx ps _ pos h hE
  | true =>
    simp only [hmh, if_true] at h ⊢
    obtain ⟨x, p1, e1, e2⟩ := bind_ok_inv h
    rcases hm hmh with h4 | h4
    · rw [M.bind_ok (by rw [metaBefore_sim ha _ h4]; exact e1)]
      split at e2
      · next ho => rw [if_pos ho]; exact e2
      · next ho => rw [if_neg ho]; exact body_sim hbd ha ctx ps _ p1 e2 hE
    · obtain ⟨e, p, he⟩ := metaBefore_short (d := d) (dst.setVersion anyVersion) h4
      rw [he] at e1
      cases e1

theorem box_sim_hang (hbd : bd ∈ Cat.allDefs) (ha : Agree E d d') (ctx : Ctx) (ps : Nat) (dst : SV) {pos : Nat}
    (hpos : pos ≤ d.length) (hE : d.length ≤ E)
    (h : (unmarshalBox bd d ctx ps dst pos).1 = .hang) : (unmarshalBox bd d' ctx ps dst pos).1 = .hang := by
  unfold unmarshalBox at h ⊢
  simp only at h ⊢
  cases hmh : bd.metaHook with
  | false =>
    simp only [hmh, Bool.false_eq_true, if_false] at h ⊢
    exact body_sim_hang hbd ha ctx ps _ hpos hE h
  | true =>
    simp only [hmh, if_true] at h ⊢
    rw [M.bind_run] at h ⊢
    by_cases h4 : pos + 4 ≤ E
    · rw [metaBefore_sim ha _ h4]
      cases hr : metaBefore d (dst.setVersion anyVersion) pos with
      | mk o p1 =>
        rw [hr] at h
        cases o with
        | ok x =>
          have := metaBefore_pos hr
          subst this
          simp only at h ⊢
          split at h
          · cases h
          · next ho => rw [if_neg ho]; exact body_sim_hang hbd ha ctx ps _ hpos hE h
        | err _ => cases h
        | panic => cases h
        | hang => rfl
    · obtain ⟨e, p, he⟩ := metaBefore_short (d := d) (dst.setVersion anyVersion) (pos := pos) (by omega)
      rw [he] at h
      cases h

end Mp4
