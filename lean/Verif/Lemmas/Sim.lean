import Verif.Lemmas.SafeUnmarshal

/-!
# `Unmarshal` depends only on the bytes it has passed
-/

namespace Mp4

open Spec

/-- `d` and `d'` have the same first `E` bytes. -/
structure Agree (E : Nat) (d d' : Bytes) : Prop where
  take : d.take E = d'.take E
  left : E ≤ d.length
  right : E ≤ d'.length
  small : d'.length < U64

theorem Agree.getElem? {E : Nat} {d d' : Bytes} (h : Agree E d d') {i : Nat} (hi : i < E) : d[i]? = d'[i]? := by
  have := congrArg (fun l => l[i]?) h.take
  simp only [List.getElem?_take, if_pos hi] at this
  exact this

theorem Agree.slice {E : Nat} {d d' : Bytes} (h : Agree E d d') {p n : Nat} (hi : p + n ≤ E) :
    (d.drop p).take n = (d'.drop p).take n := by
  apply List.ext_getElem?
  intro i
  simp only [List.getElem?_take, List.getElem?_drop]
  split
  · exact h.getElem? (by omega)
  · rfl

/-- A successful run of `m` moves forward; if it ends before `E`, `m'` does exactly the same. -/
def Sim0 {α : Type} (E : Nat) (m m' : UM α) : Prop :=
  ∀ s a s', s.r.width < 8 → m s = (.ok a, s') →
    s.r.pos ≤ s'.r.pos ∧ s'.r.width < 8 ∧ (s'.r.pos ≤ E → m' s = (.ok a, s'))

/-- `m` does not leave the stream (`L` is its length). -/
def Keeps {α : Type} (L : Nat) (m : UM α) : Prop :=
  ∀ s a s', s.r.width < 8 → m s = (.ok a, s') → s.r.pos ≤ L → s'.r.pos ≤ L

/-- `m` returns. -/
def Returns {α : Type} (L : Nat) (m : UM α) : Prop :=
  ∀ s, s.r.width < 8 → s.r.pos ≤ L → (m s).1 ≠ .hang

/-- `m` (on a stream of length `L`) moves forward in the stream; where it succeeds before `E`, `m'` does the same; if
`L ≤ E` and it does not return, neither does `m'`. -/
structure Sim {α : Type} (L E : Nat) (m m' : UM α) : Prop where
  ok : Sim0 E m m'
  keep : Keeps L m
  hang : ∀ s, s.r.width < 8 → s.r.pos ≤ L → L ≤ E → (m s).1 = .hang → (m' s).1 = .hang

theorem Returns.sim {α : Type} {L E : Nat} {m m' : UM α} (h : Returns L m) (h1 : Sim0 E m m') (h2 : Keeps L m) : Sim L E m m' :=
  ⟨h1, h2, fun s hw hs _ hh => absurd hh (h s hw hs)⟩

namespace Sim
variable {α β : Type} {L E : Nat}

theorem still {m : UM α} (h : ∀ s, (m s).2.r = s.r ∧ (m s).1 ≠ .hang) : Sim L E m m := by
  refine ⟨?_, ?_, fun s _ _ _ hh => hh⟩
  · intro s a s' hw hm
    have := (h s).1
    rw [hm] at this
    simp only at this
    rw [this]
    exact ⟨Nat.le_refl _, hw, fun _ => hm⟩
  · intro s a s' hw hm hs
    have := (h s).1
    rw [hm] at this
    simp only at this
    rw [this]
    exact hs

theorem pure (a : α) : Sim L E (Pure.pure a : UM α) (Pure.pure a) :=
  still (fun s => ⟨rfl, by simp [M.pure_run]⟩)

theorem fail (e : Err) (m' : UM α) : Sim L E (M.fail e : UM α) m' := by
  refine ⟨?_, ?_, ?_⟩
  · intro s a s' _ h; cases h
  · intro s a s' _ h; cases h
  · intro s _ _ _ h; cases h

theorem panic (m' : UM α) : Sim L E (M.panic : UM α) m' := by
  refine ⟨?_, ?_, ?_⟩
  · intro s a s' _ h; cases h
  · intro s a s' _ h; cases h
  · intro s _ _ _ h; cases h

theorem hangs : Sim L E (M.hang : UM α) M.hang := by
  refine ⟨?_, ?_, ?_⟩
  · intro s a s' _ h; cases h
  · intro s a s' _ h; cases h
  · intro s _ _ _ _; rfl

theorem noHang_bind {τ : Type} {m : M τ α} {k : α → M τ β} {s : τ} (h1 : (m s).1 ≠ .hang)
    (h2 : ∀ a s1, m s = (.ok a, s1) → (k a s1).1 ≠ .hang) : ((m >>= k) s).1 ≠ .hang := by
  rw [M.bind_run]
  cases hm : m s with
  | mk o s1 =>
    cases o with
    | ok a => exact h2 a s1 hm
    | err _ => simp
    | panic => simp
    | hang => rw [hm] at h1; exact absurd rfl h1

theorem bind {m m' : UM α} {k k' : α → UM β} (h1 : Sim L E m m') (h2 : ∀ a, Sim L E (k a) (k' a)) :
    Sim L E (m >>= k) (m' >>= k') := by
  refine ⟨?_, ?_, ?_⟩
  · intro s b s' hw h
    obtain ⟨a, s1, e1, e2⟩ := bind_ok_inv h
    obtain ⟨p1, w1, q1⟩ := h1.ok s a s1 hw e1
    obtain ⟨p2, w2, q2⟩ := (h2 a).ok s1 b s' w1 e2
    refine ⟨Nat.le_trans p1 p2, w2, ?_⟩
    intro hE
    rw [M.bind_ok (q1 (Nat.le_trans p2 hE))]
    exact q2 hE
  · intro s b s' hw h hs
    obtain ⟨a, s1, e1, e2⟩ := bind_ok_inv h
    obtain ⟨_, w1, _⟩ := h1.ok s a s1 hw e1
    exact (h2 a).keep s1 b s' w1 e2 (h1.keep s a s1 hw e1 hs)
  · intro s hw hs hE hh
    rw [M.bind_run] at hh ⊢
    cases hm : m s with
    | mk o s1 =>
      rw [hm] at hh
      cases o with
      | ok a =>
        simp only at hh
        obtain ⟨_, w1, q1⟩ := h1.ok s a s1 hw hm
        have hk := h1.keep s a s1 hw hm hs
        rw [q1 (Nat.le_trans hk hE)]
        exact (h2 a).hang s1 w1 hk hE hh
      | err _ => cases hh
      | panic => cases hh
      | hang =>
        have := h1.hang s hw hs hE (by rw [hm])
        cases hm' : m' s with
        | mk o' s1' =>
          rw [hm'] at this
          simp only at this
          subst this
          rfl

theorem get {k k' : USt → UM α} (h : ∀ s, Sim L E (k s) (k' s)) : Sim L E (M.get >>= k) (M.get >>= k') :=
  bind (still (fun s => ⟨rfl, by simp [M.get_run]⟩)) h

theorem addR {n : Nat} : Sim L E (addR n) (addR n) :=
  still (fun s => ⟨rfl, by simp [Mp4.addR, M.modify_run]⟩)

theorem ite {c : Prop} [Decidable c] {a b a' b' : UM α} (h1 : c → Sim L E a a') (h2 : ¬ c → Sim L E b b') :
    Sim L E (if c then a else b) (if c then a' else b') := by
  by_cases h : c
  · rw [if_pos h, if_pos h]; exact h1 h
  · rw [if_neg h, if_neg h]; exact h2 h

end Sim

section
variable {E L : Nat} {d d' : Bytes}

theorem sim_readBit (ha : Agree E d d') : Sim d.length E (liftR (readBit d)) (liftR (readBit d')) := by
  refine Returns.sim ?_ ?_ ?_
  · intro s _ _
    unfold liftR readBit
    by_cases h0 : s.r.width = 0
    · simp only [h0, if_true]
      cases d[s.r.pos]? <;> simp
    · simp [h0]
  rotate_left
  · intro s a s' hw h hs
    unfold liftR readBit at h
    by_cases h0 : s.r.width = 0
    · simp only [h0, if_true] at h
      cases hd : d[s.r.pos]? with
      | none => rw [hd] at h; simp at h
      | some b =>
        rw [hd] at h
        simp only [Prod.mk.injEq, Out.ok.injEq] at h
        obtain ⟨rfl, rfl⟩ := h
        simp only
        obtain ⟨hlt, _⟩ := List.getElem?_eq_some_iff.mp hd
        omega
    · simp only [h0, if_false] at h
      simp only [Prod.mk.injEq, Out.ok.injEq] at h
      obtain ⟨rfl, rfl⟩ := h
      exact hs
  intro s a s' hw h
  unfold liftR readBit at h ⊢
  by_cases h0 : s.r.width = 0
  · simp only [h0, if_true] at h ⊢
    cases hd : d[s.r.pos]? with
    | none => rw [hd] at h; simp at h
    | some b =>
      rw [hd] at h
      simp only [Prod.mk.injEq, Out.ok.injEq] at h
      obtain ⟨rfl, rfl⟩ := h
      refine ⟨by simp, by simp, ?_⟩
      intro hE
      simp only at hE
      rw [← ha.getElem? (show s.r.pos < E by omega), hd]
  · simp only [h0, if_false] at h ⊢
    simp only [Prod.mk.injEq, Out.ok.injEq] at h
    obtain ⟨rfl, rfl⟩ := h
    exact ⟨by simp, by simp only; omega, fun _ => rfl⟩

theorem liftR_bind {α β : Type} (m : RM α) (k : α → RM β) :
    liftR (m >>= k) = (liftR m >>= fun a => liftR (k a)) := by
  funext s
  rw [M.bind_run]
  unfold liftR
  rw [M.bind_run]
  cases m s.r with
  | mk o r => cases o <;> rfl

theorem sim_readBitsLoop (ha : Agree E d d') : ∀ (k idx : Nat) (data : Bytes),
    Sim d.length E (liftR (readBitsLoop d k idx data)) (liftR (readBitsLoop d' k idx data))
  | 0, _, data => by
    unfold readBitsLoop
    exact Sim.pure _
  | k + 1, idx, data => by
    unfold readBitsLoop
    rw [liftR_bind, liftR_bind]
    exact (sim_readBit ha).bind (fun bit => sim_readBitsLoop ha k _ _)

theorem sim_readBits (ha : Agree E d d') (n : Nat) : Sim d.length E (liftR (readBits d n)) (liftR (readBits d' n)) :=
  sim_readBitsLoop ha _ _ _

theorem readBits_returns (_ : Agree E d d') (n : Nat) : Returns d.length (liftR (readBits d n)) := by
  have hl : ∀ (k idx : Nat) (data : Bytes) (s : RSt), (readBitsLoop d k idx data s).1 ≠ .hang := by
    intro k
    induction k with
    | zero => intro idx data s; simp [readBitsLoop, M.pure_run]
    | succ k ih =>
      intro idx data s
      unfold readBitsLoop
      rw [M.bind_run]
      cases hr : readBit d s with
      | mk o s1 =>
        cases o with
        | ok b => exact ih _ _ _
        | err _ => simp
        | panic => simp
        | hang =>
          unfold readBit at hr
          split at hr
          · split at hr <;> cases hr
          · cases hr
  intro s _ _
  unfold liftR readBits
  exact hl _ _ _ _

theorem sim_readBitsA (ha : Agree E d d') (n : Nat) : Sim d.length E (readBitsA d n) (readBitsA d' n) := by
  unfold readBitsA
  refine Sim.bind ?_ (fun _ => sim_readBits ha n)
  unfold alloc
  split
  · exact Sim.pure _
  · exact Sim.panic _

/-- Reading 8 bits moves one byte forward. -/
theorem readBits8_pos {s s' : RSt} {a : Bytes} (hw : s.width < 8) (h : readBits d 8 s = (.ok a, s')) :
    s'.pos = s.pos + 1 := by
  have step : ∀ {k idx : Nat} {data : Bytes} {s s' : RSt} {a : Bytes},
      readBitsLoop d k idx data s = (.ok a, s') → k ≤ s.width → s'.pos = s.pos ∧ s'.width = s.width - k := by
    intro k
    induction k with
    | zero => intro idx data s s' a h _; cases h; exact ⟨rfl, rfl⟩
    | succ k ih =>
      intro idx data s s' a h hk
      unfold readBitsLoop at h
      obtain ⟨b, s1, e1, e2⟩ := bind_ok_inv h
      unfold readBit at e1
      rw [if_neg (by omega)] at e1
      cases e1
      have := ih e2 (by simp only; omega)
      simp only at this
      exact ⟨this.1, by omega⟩
  have split : ∀ {k1 k2 idx : Nat} {data : Bytes} {s s' : RSt} {a : Bytes},
      readBitsLoop d (k1 + k2) idx data s = (.ok a, s') → ∃ s1 data1 idx1 a1,
        readBitsLoop d k1 idx data s = (.ok a1, s1) ∧ readBitsLoop d k2 idx1 data1 s1 = (.ok a, s') := by
    intro k1
    induction k1 with
    | zero => intro k2 idx data s s' a h; rw [Nat.zero_add] at h; exact ⟨s, data, idx, data, rfl, h⟩
    | succ k ih =>
      intro k2 idx data s s' a h
      rw [show k + 1 + k2 = (k + k2) + 1 by omega] at h
      unfold readBitsLoop at h
      obtain ⟨b, s1, e1, e2⟩ := bind_ok_inv h
      obtain ⟨s2, data1, idx1, a1, e3, e4⟩ := ih e2
      refine ⟨s2, data1, idx1, a1, ?_, e4⟩
      unfold readBitsLoop
      rw [M.bind_ok e1]
      exact e3
  unfold readBits at h
  generalize (8 + 7) / 8 * 8 - 8 = idx at h
  generalize List.replicate ((8 + 7) / 8) 0#8 = data at h
  obtain ⟨n, hn⟩ : ∃ n, n = 8 := ⟨8, rfl⟩
  rw [← hn] at h
  obtain rfl : n = s.width + (8 - s.width) := by omega
  obtain ⟨s1, data1, idx1, a1, e1, e2⟩ := split h
  obtain ⟨p1, w1⟩ := step e1 (Nat.le_refl _)
  rw [show 8 - s.width = (7 - s.width) + 1 by omega] at e2
  unfold readBitsLoop at e2
  obtain ⟨b, s2, e3, e4⟩ := bind_ok_inv e2
  unfold readBit at e3
  rw [if_pos (by omega)] at e3
  cases hd : d[s1.pos]? with
  | none => rw [hd] at e3; simp at e3
  | some b =>
    rw [hd] at e3
    simp only [Prod.mk.injEq, Out.ok.injEq] at e3
    obtain ⟨_, rfl⟩ := e3
    have := (step e4 (by simp only; omega)).1
    simp only at this
    omega

theorem sim_uvarint (ha : Agree E d d') : ∀ (f f' v : Nat) (s : USt) (a : Nat) (s' : USt), s.r.width < 8 →
    readUvarint d f v s = (.ok a, s') → s.r.pos ≤ s'.r.pos ∧ s'.r.width < 8 ∧
      (s'.r.pos ≤ E → E < f' + s.r.pos → readUvarint d' f' v s = (.ok a, s'))
  | 0, f', v, s, a, s', hw, h => by cases h
  | f + 1, f', v, s, a, s', hw, h => by
    unfold readUvarint at h
    obtain ⟨o, s1, e1, e2⟩ := bind_ok_inv h
    obtain ⟨_, s2, e3, e4⟩ := bind_ok_inv e2
    obtain ⟨p1, w1, q1⟩ := (sim_readBits ha 8).ok s o s1 hw e1
    have hpos : s1.r.pos = s.r.pos + 1 := by
      unfold liftR at e1
      cases hr : readBits d 8 s.r with
      | mk x r =>
        rw [hr] at e1
        cases e1
        exact readBits8_pos hw hr
    have hs2 : s2 = { s1 with rbits := s1.rbits + 8 } := by cases e3; rfl
    subst hs2
    simp only at e4
    by_cases hz : o.headD 0#8 &&& 0x80#8 = 0#8
    · rw [if_pos hz] at e4
      cases e4
      refine ⟨p1, w1, ?_⟩
      intro hE hf
      simp only at hE
      obtain ⟨f'', rfl⟩ : ∃ k, f' = k + 1 := ⟨f' - 1, by omega⟩
      unfold readUvarint
      rw [M.bind_ok (q1 hE)]
      rw [M.bind_ok (m := addR 8) (s' := { s1 with rbits := s1.rbits + 8 }) (a := ()) rfl]
      simp only [hz, if_true]
      rfl
    · rw [if_neg hz] at e4
      obtain ⟨f'', hf''⟩ : ∃ k, k = f' - 1 := ⟨_, rfl⟩
      obtain ⟨p2, w2, q2⟩ := sim_uvarint ha f f'' _ { s1 with rbits := s1.rbits + 8 } a s' w1 e4
      simp only at p2
      refine ⟨by omega, w2, ?_⟩
      intro hE hf
      obtain rfl : f' = f'' + 1 := by omega
      unfold readUvarint
      rw [M.bind_ok (q1 (by omega))]
      rw [M.bind_ok (m := addR 8) (s' := { s1 with rbits := s1.rbits + 8 }) (a := ()) rfl]
      simp only [hz, if_false]
      exact q2 hE (by simp only; omega)

theorem uvarint_keeps (ha : Agree E d d') : ∀ (f v : Nat), Keeps d.length (readUvarint d f v)
  | 0, v => by intro s a s' _ h; cases h
  | f + 1, v => by
    unfold readUvarint
    intro s a s' hw h hs
    obtain ⟨o, s1, e1, e2⟩ := bind_ok_inv h
    obtain ⟨_, s2, e3, e4⟩ := bind_ok_inv e2
    obtain ⟨p1, w1, q1⟩ := (sim_readBits ha 8).ok s o s1 hw e1
    have hk := (sim_readBits ha 8).keep s o s1 hw e1 hs
    have hs2 : s2 = { s1 with rbits := s1.rbits + 8 } := by cases e3; rfl
    subst hs2
    simp only at e4
    split at e4
    · cases e4; exact hk
    · exact uvarint_keeps ha f _ { s1 with rbits := s1.rbits + 8 } _ _ w1 e4 hk

theorem readBits8_step {s s1 : USt} {o : Bytes} (hw : s.r.width < 8) (e1 : liftR (readBits d 8) s = (.ok o, s1)) :
    s1.r.pos = s.r.pos + 1 := by
  unfold liftR at e1
  cases hr : readBits d 8 s.r with
  | mk x r =>
    rw [hr] at e1
    cases e1
    exact readBits8_pos hw hr

theorem uvarint_returns' (ha : Agree E d d') : ∀ (f v : Nat) (s : USt), s.r.width < 8 → s.r.pos ≤ d.length →
    d.length < f + s.r.pos → (readUvarint d f v s).1 ≠ .hang
  | 0, v, s, hw, hs, hf => by omega
  | f + 1, v, s, hw, hs, hf => by
    intro hh
    unfold readUvarint at hh
    rw [M.bind_run] at hh
    cases hr : liftR (readBits d 8) s with
    | mk o s1 =>
      rw [hr] at hh
      cases o with
      | ok o =>
        simp only at hh
        obtain ⟨_, w1, _⟩ := (sim_readBits ha 8).ok s o s1 hw hr
        have hk := (sim_readBits ha 8).keep s o s1 hw hr hs
        have hp := readBits8_step hw hr
        rw [M.bind_ok (m := addR 8) (s' := { s1 with rbits := s1.rbits + 8 }) (a := ()) rfl] at hh
        split at hh
        · cases hh
        · exact uvarint_returns' ha f _ _ (by exact w1) (by exact hk) (by simp only; omega) hh
      | err _ => cases hh
      | panic => cases hh
      | hang => exact readBits_returns ha 8 s hw hs (by rw [hr])

theorem uvarint_returns (ha : Agree E d d') {f v : Nat} (hf : d.length < f) : Returns d.length (readUvarint d f v) :=
  fun s hw hs => uvarint_returns' ha f v s hw hs (by omega)

theorem sim_uint (ha : Agree E d d') (w : Nat) (fi : Field) : Sim d.length E (unmarshalUint d w fi) (unmarshalUint d' w fi) := by
  unfold unmarshalUint
  apply Sim.ite
  · intro _
    refine Sim.bind (Returns.sim (uvarint_returns ha (by omega)) ?_ (uvarint_keeps ha _ _)) (fun v => Sim.pure _)
    intro s a s' hw h
    obtain ⟨p1, w1, q1⟩ := sim_uvarint ha (d.length + 2) (d'.length + 2) 0 s a s' hw h
    refine ⟨p1, w1, fun hE => q1 hE ?_⟩
    have := ha.right
    omega
  · intro _
    apply Sim.ite
    · intro _; exact Sim.fail _ _
    · intro _
      exact (sim_readBitsA ha _).bind fun _ => Sim.addR.bind fun _ => Sim.pure _

theorem sim_int (ha : Agree E d d') (w : Nat) (fi : Field) : Sim d.length E (unmarshalInt d w fi) (unmarshalInt d' w fi) := by
  unfold unmarshalInt
  apply Sim.ite
  · intro _; exact Sim.fail _ _
  · intro _
    apply Sim.ite
    · intro _; exact Sim.fail _ _
    · intro _
      exact (sim_readBitsA ha _).bind fun _ => Sim.addR.bind fun _ => Sim.pure _

theorem sim_bool (ha : Agree E d d') (fi : Field) : Sim d.length E (unmarshalBool d fi) (unmarshalBool d' fi) := by
  unfold unmarshalBool
  apply Sim.ite
  · intro _; exact Sim.fail _ _
  · intro _
    exact (sim_readBitsA ha _).bind fun _ => Sim.addR.bind fun _ => Sim.pure _

theorem sim_stringCLoop (ha : Agree E d d') (size8 : Nat) : ∀ fuel : Nat,
    Sim d.length E (stringCLoop d size8 fuel) (stringCLoop d' size8 fuel)
  | 0 => Sim.hangs
  | fuel + 1 => by
    unfold stringCLoop
    apply Sim.get
    intro s
    apply Sim.ite
    · intro _; exact Sim.pure _
    · intro _
      refine (sim_readBits ha 8).bind fun c => Sim.addR.bind fun _ => ?_
      apply Sim.ite
      · intro _; exact Sim.pure _
      · intro _
        exact (sim_stringCLoop ha size8 fuel).bind fun _ => Sim.pure _

theorem sim_string (ha : Agree E d d') (size8 : Nat) (fi : Field) (h : fi.strCP = false) :
    Sim d.length E (unmarshalString d size8 fi) (unmarshalString d' size8 fi) := by
  unfold unmarshalString
  rw [h]
  exact (sim_stringCLoop ha size8 _).bind fun _ => Sim.pure _

theorem readerHasSize_inv {n : Nat} {r r' : RSt} (h : readerHasSize d n r = (.ok true, r')) :
    r.width = 0 ∧ n ≤ sub64 d.length r.pos ∧ r' = r := by
  unfold readerHasSize seekCurrent at h
  by_cases h0 : r.width = 0
  · simp only [h0, ne_eq, not_true_eq_false, if_false, seekEnd, seekStart] at h
    split at h
    · cases h
    · next hlt =>
      cases h
      refine ⟨h0, by omega, ?_⟩
      cases r
      simp only at h0
      subst h0
      rfl
  · simp [h0] at h

theorem readerHasSize_intro {n : Nat} {r : RSt} (h0 : r.width = 0) (hn : n ≤ sub64 d.length r.pos) :
    readerHasSize d n r = (.ok true, r) := by
  unfold readerHasSize seekCurrent
  simp only [h0, ne_eq, not_true_eq_false, if_false, seekEnd, seekStart]
  rw [if_neg (by omega)]
  cases r
  simp only at h0
  rw [h0]

theorem readerHasSize_returns (n : Nat) (r : RSt) : (readerHasSize d n r).1 ≠ .hang := by
  unfold readerHasSize seekCurrent
  by_cases h0 : r.width = 0
  · simp only [h0, ne_eq, not_true_eq_false, if_false, seekEnd, seekStart]
    split <;> simp
  · simp [h0]

theorem alloc_returns (n : Nat) (s : USt) : (alloc n s).1 ≠ .hang := by
  unfold alloc
  split <;> simp [M.panic, M.pure_run]

theorem copyN_returns (n : Nat) (r : RSt) : (copyN d n r).1 ≠ .hang := by
  unfold copyN
  simp only
  split
  · simp
  · split
    · simp
    · split <;> simp

theorem byteSlice_returns (length : Nat) (s : USt) : (byteSlice d length s).1 ≠ .hang := by
  unfold byteSlice
  apply Sim.noHang_bind (m := liftR _)
  · exact readerHasSize_returns _ _
  · intro ok s1 _
    split
    · simp [M.fail]
    · apply Sim.noHang_bind
      · exact alloc_returns _ _
      · intro _ s2 _
        apply Sim.noHang_bind (m := liftR _)
        · exact copyN_returns _ _
        · intro _ s3 _
          simp [addR, M.bind_run, M.modify_run, M.pure_run]

theorem copyN_keeps {n : Nat} {r r' : RSt} {a : Bytes} (h : copyN d n r = (.ok a, r')) (hs : r.pos ≤ d.length) :
    r'.pos ≤ d.length := by
  unfold copyN at h
  simp only at h
  split at h
  · cases h; exact hs
  · split at h
    · cases h
    · split at h
      · cases h
      · cases h
        simp
        omega

theorem byteSlice_keeps (length : Nat) : Keeps d.length (byteSlice d length) := by
  intro s a s' hw h hs
  unfold byteSlice at h
  obtain ⟨ok, s1, e1, e2⟩ := bind_ok_inv h
  cases ok with
  | false => simp [M.fail] at e2
  | true =>
    unfold liftR at e1
    cases hr : readerHasSize d (length * 8 % U64 / 8) s.r with
    | mk x r =>
      rw [hr] at e1
      cases e1
      obtain ⟨h0, hn, rfl⟩ := readerHasSize_inv hr
      simp only [not_true_eq_false, if_false] at e2
      obtain ⟨_, s2, e3, e4⟩ := bind_ok_inv e2
      unfold alloc at e3
      split at e3
      · cases e3
        obtain ⟨buf, s3, e5, e6⟩ := bind_ok_inv e4
        obtain ⟨_, s4, e7, e8⟩ := bind_ok_inv e6
        cases e8
        cases e7
        unfold liftR at e5
        cases hc : copyN d (length * 8 % U64 / 8) s.r with
        | mk y r =>
          rw [hc] at e5
          cases e5
          exact copyN_keeps hc hs
      · cases e3

theorem sim_byteSlice (ha : Agree E d d') (length : Nat) : Sim d.length E (byteSlice d length) (byteSlice d' length) := by
  refine Returns.sim ?_ ?_ ?_
  · intro s _ _
    exact byteSlice_returns _ s
  rotate_left
  · intro s a s' hw h hs
    exact byteSlice_keeps _ s a s' hw h hs
  intro s a s' hw h
  unfold byteSlice at h ⊢
  generalize length * 8 % U64 / 8 = n at h ⊢
  obtain ⟨ok, s1, e1, e2⟩ := bind_ok_inv h
  cases ok with
  | false => simp at e2; done
  | true =>
    unfold liftR at e1
    cases hr : readerHasSize d n s.r with
    | mk x r =>
      rw [hr] at e1
      cases e1
      obtain ⟨h0, hn, rfl⟩ := readerHasSize_inv hr
      simp only [not_true_eq_false, if_false] at e2
      obtain ⟨_, s2, e3, e4⟩ := bind_ok_inv e2
      unfold alloc at e3
      split at e3
      · next hal =>
        cases e3
        obtain ⟨buf, s3, e5, e6⟩ := bind_ok_inv e4
        obtain ⟨_, s4, e7, e8⟩ := bind_ok_inv e6
        have hs4 : s4 = { s3 with rbits := s3.rbits + n * 8 } := by cases e7; rfl
        subst hs4
        cases e8
        -- what `copyN` did
        have hcopy : s3 = { s with r := { s.r with pos := s.r.pos + n } } ∧ buf = (d.drop s.r.pos).take n ∧
            ((d.drop s.r.pos).take n).length = n := by
          unfold liftR copyN at e5
          by_cases hz : n = 0 ∨ 2 ^ 63 ≤ n
          · have hz' : n = 0 := by simp only [maxAlloc] at hal; omega
            simp only [hz, if_true] at e5
            cases e5
            subst hz'
            simp
          · simp only [hz, if_false, h0, ne_eq, not_true_eq_false] at e5
            split at e5
            · cases e5
            · next hg =>
              have hlen : ((d.drop s.r.pos).take n).length = n := by
                have := List.length_take_le n (d.drop s.r.pos)
                omega
              simp only [Prod.mk.injEq, Out.ok.injEq] at e5
              rw [hlen] at e5
              exact ⟨by rw [← e5.2]; simp only [h0], e5.1.symm, hlen⟩
        obtain ⟨rfl, rfl, hlen⟩ := hcopy
        refine ⟨by simp, hw, ?_⟩
        intro hE
        simp only at hE
        have hle := ha.right
        have hsm := ha.small
        rw [M.bind_ok (s' := s) (a := true) (by
          unfold liftR
          rw [readerHasSize_intro h0 (by unfold sub64; simp only [U64] at *; omega)])]
        simp only [not_true_eq_false, if_false]
        rw [M.bind_ok (s' := s) (a := ()) (by unfold alloc; rw [if_pos hal]; rfl)]
        have hcn : liftR (copyN d' n) s = (.ok ((d.drop s.r.pos).take n), { s with r := { s.r with pos := s.r.pos + n } }) := by
          unfold liftR copyN
          by_cases hz : n = 0 ∨ 2 ^ 63 ≤ n
          · have hz' : n = 0 := by simp only [maxAlloc] at hal; omega
            simp [hz']
          · simp only [hz, if_false, h0, ne_eq, not_true_eq_false]
            rw [← ha.slice hE, if_neg (by omega), hlen]
        rw [M.bind_ok hcn]
        rfl
      · cases e3

theorem sim_stringZ (ha : Agree E d d') : ∀ (f f' : Nat) (s : RSt) (a : Bytes) (s' : RSt), s.width < 8 →
    readStringZ d f s = (.ok a, s') → s.pos ≤ s'.pos ∧ s'.width < 8 ∧
      (s'.pos ≤ E → E < f' + s.pos → readStringZ d' f' s = (.ok a, s'))
  | 0, f', s, a, s', hw, h => by cases h
  | f + 1, f', s, a, s', hw, h => by
    unfold readStringZ at h
    obtain ⟨b, s1, e1, e2⟩ := bind_ok_inv h
    unfold readSome at e1
    by_cases h0 : s.width = 0
    · simp only [h0, ne_eq, not_true_eq_false, if_false] at e1
      by_cases hlt : d.length ≤ s.pos
      · rw [if_pos hlt] at e1; cases e1
      · rw [if_neg hlt] at e1
        have hgl : ((d.drop s.pos).take 1).length = 1 := by simp; omega
        rw [hgl] at e1
        simp only [Prod.mk.injEq, Out.ok.injEq] at e1
        obtain ⟨rfl, rfl⟩ := e1
        have hread : s.pos + 1 ≤ E → readSome d' 1 s = (.ok ((d.drop s.pos).take 1), { s with pos := s.pos + 1 }) := by
          intro hE
          have := ha.right
          unfold readSome
          simp only [h0, ne_eq, not_true_eq_false, if_false]
          rw [if_neg (by omega), ← ha.slice hE, hgl]
        have hw' : ({ s with pos := s.pos + 1 } : RSt) = { pos := s.pos + 1, octet := s.octet, width := 0 } := by
          simp only [h0]
        rw [← hw'] at e2
        by_cases hz : ((d.drop s.pos).take 1).headD 0#8 = 0#8
        · simp only [hz, if_true] at e2
          cases e2
          refine ⟨by simp, hw, ?_⟩
          intro hE hf
          simp only at hE
          obtain ⟨f'', rfl⟩ : ∃ k, f' = k + 1 := ⟨f' - 1, by omega⟩
          unfold readStringZ
          rw [M.bind_ok (hread hE)]
          simp only [hz, if_true]
          rfl
        · simp only [hz, if_false] at e2
          obtain ⟨r, s2, e3, e4⟩ := bind_ok_inv e2
          cases e4
          obtain ⟨p2, w2, q2⟩ := sim_stringZ ha f (f' - 1) { s with pos := s.pos + 1 } _ _ hw e3
          simp only at p2
          refine ⟨by omega, w2, ?_⟩
          intro hE hf
          obtain ⟨f'', rfl⟩ : ∃ k, f' = k + 1 := ⟨f' - 1, by omega⟩
          unfold readStringZ
          rw [M.bind_ok (hread (by omega))]
          simp only [hz, if_false]
          have q3 := q2 hE (by simp only; omega)
          rw [Nat.add_sub_cancel] at q3
          rw [M.bind_ok q3]
          rfl
    · simp [h0] at e1

theorem readSome_keeps {n : Nat} {r r' : RSt} {a : Bytes} (h : readSome d n r = (.ok a, r')) :
    r'.pos ≤ d.length ∧ (0 < n → r.pos < r'.pos) := by
  unfold readSome at h
  simp only at h
  split at h
  · cases h
  · split at h
    · cases h
    · cases h
      simp
      omega

theorem readSome_returns (n : Nat) (r : RSt) : (readSome d n r).1 ≠ .hang := by
  unfold readSome
  simp only
  split
  · simp
  · split <;> simp

theorem stringZ_keeps : ∀ (f : Nat) (r : RSt) (a : Bytes) (r' : RSt), readStringZ d f r = (.ok a, r') →
    r.pos ≤ d.length → r'.pos ≤ d.length
  | 0, r, a, r', h, _ => by cases h
  | f + 1, r, a, r', h, hs => by
    unfold readStringZ at h
    obtain ⟨b, s1, e1, e2⟩ := bind_ok_inv h
    have hk := (readSome_keeps e1).1
    simp only at e2
    split at e2
    · cases e2; exact hk
    · obtain ⟨x, s2, e3, e4⟩ := bind_ok_inv e2
      cases e4
      exact stringZ_keeps f s1 x r' e3 hk

theorem stringZ_returns : ∀ (f : Nat) (r : RSt), r.pos ≤ d.length → d.length < f + r.pos →
    (readStringZ d f r).1 ≠ .hang
  | 0, r, h, hf => by omega
  | f + 1, r, h, hf => by
    unfold readStringZ
    apply Sim.noHang_bind (readSome_returns _ _)
    intro b s1 e1
    have hk := readSome_keeps e1
    split
    · simp [M.pure_run]
    · apply Sim.noHang_bind
      · exact stringZ_returns f s1 hk.1 (by have := hk.2 (by decide); omega)
      · intro x s2 _
        simp [M.pure_run]

theorem sim_stringZ' (ha : Agree E d d') : Sim d.length E (liftR (readStringZ d (d.length + 2))) (liftR (readStringZ d' (d'.length + 2))) := by
  refine Returns.sim ?_ ?_ ?_
  · intro s _ hs
    exact stringZ_returns (d.length + 2) s.r hs (by omega)
  rotate_left
  · intro s a s' hw h hs
    unfold liftR at h
    cases hr : readStringZ d (d.length + 2) s.r with
    | mk x r =>
      rw [hr] at h
      cases h
      exact stringZ_keeps _ _ _ _ hr hs
  intro s a s' hw h
  unfold liftR at h
  cases hr : readStringZ d (d.length + 2) s.r with
  | mk x r =>
    rw [hr] at h
    cases h
    obtain ⟨p, w, q⟩ := sim_stringZ ha _ (d'.length + 2) _ _ _ hw hr
    refine ⟨p, w, ?_⟩
    intro hE
    have := ha.right
    unfold liftR
    rw [q hE (by omega)]

theorem liftR_pure {α : Type} (a : α) : liftR (Pure.pure a : RM α) = Pure.pure a := rfl

theorem readFull_returns (n : Nat) (r : RSt) : (readFull d n r).1 ≠ .hang := by
  unfold readFull
  simp only
  split
  · simp
  · split
    · simp
    · split
      · simp
      · split <;> simp

theorem readFull_keeps {n : Nat} {r r' : RSt} {a : Bytes} (h : readFull d n r = (.ok a, r')) (hs : r.pos ≤ d.length) :
    r'.pos ≤ d.length := by
  unfold readFull at h
  simp only at h
  split at h
  · cases h; exact hs
  · split at h
    · cases h
    · split at h
      · cases h
      · split at h
        · cases h
        · cases h
          simp
          omega

/-- checking the size and then reading that many bytes -/
theorem sim_checked (ha : Agree E d d') (size lb : Nat) (sv : SV) (h0 : size ≠ 0) :
    Sim d.length E (liftR (do
      let ok ← readerHasSize d size
      if ¬ ok then M.fail .notEnoughBits
      else if maxAlloc < size then M.panic
      else do
        let buf ← readFull d size
        let plen := (buf.headD 0#8).toNat
        if sv.uint "PreDefined" ≠ 0 ∧ 2 ≤ size ∧ size = (plen + 1) % 256 then
          Pure.pure (lb, true, sv.set "Name" (.str ((buf.drop 1).take plen)))
        else
          Pure.pure (lb, true, sv.set "Name" (.str (buf.takeWhile (fun c => c != 0#8))))))
    (liftR (do
      let ok ← readerHasSize d' size
      if ¬ ok then M.fail .notEnoughBits
      else if maxAlloc < size then M.panic
      else do
        let buf ← readFull d' size
        let plen := (buf.headD 0#8).toNat
        if sv.uint "PreDefined" ≠ 0 ∧ 2 ≤ size ∧ size = (plen + 1) % 256 then
          Pure.pure (lb, true, sv.set "Name" (.str ((buf.drop 1).take plen)))
        else
          Pure.pure (lb, true, sv.set "Name" (.str (buf.takeWhile (fun c => c != 0#8)))))) := by
  rw [liftR_bind, liftR_bind]
  refine Returns.sim ?_ ?_ ?_
  · intro s _ _
    apply Sim.noHang_bind (m := liftR _)
    · exact readerHasSize_returns _ _
    · intro ok s1 _
      split
      · simp [M.fail, liftR]
      · split
        · simp [M.panic, liftR]
        · rw [liftR_bind]
          apply Sim.noHang_bind (m := liftR _)
          · exact readFull_returns _ _
          · intro buf s2 _
            simp only
            split <;> simp [liftR, M.pure_run]
  rotate_left
  · intro s a s' hw h hs
    obtain ⟨ok, s1, e1, e2⟩ := bind_ok_inv h
    cases ok with
    | false => simp [liftR, M.fail] at e2
    | true =>
      unfold liftR at e1
      cases hr : readerHasSize d size s.r with
      | mk x r =>
        rw [hr] at e1
        cases e1
        obtain ⟨hw0, hn, rfl⟩ := readerHasSize_inv hr
        simp only [not_true_eq_false, if_false] at e2
        by_cases hal : maxAlloc < size
        · rw [if_pos hal] at e2; simp [liftR, M.panic] at e2
        · rw [if_neg hal, liftR_bind] at e2
          obtain ⟨buf, s2, e3, e4⟩ := bind_ok_inv e2
          have : s' = s2 := by
            split at e4
            · cases e4; rfl
            · cases e4; rfl
          subst this
          unfold liftR at e3
          cases hr2 : readFull d size s.r with
          | mk y r2 =>
            rw [hr2] at e3
            cases e3
            exact readFull_keeps hr2 hs
  intro s a s' hw h
  obtain ⟨ok, s1, e1, e2⟩ := bind_ok_inv h
  cases ok with
  | false => simp [liftR, M.fail] at e2
  | true =>
    unfold liftR at e1
    cases hr : readerHasSize d size s.r with
    | mk x r =>
      rw [hr] at e1
      cases e1
      obtain ⟨hw0, hn, rfl⟩ := readerHasSize_inv hr
      simp only [not_true_eq_false, if_false] at e2
      by_cases hal : maxAlloc < size
      · rw [if_pos hal] at e2; simp [liftR, M.panic] at e2
      · rw [if_neg hal, liftR_bind] at e2
        obtain ⟨buf, s2, e3, e4⟩ := bind_ok_inv e2
        unfold liftR readFull at e3
        simp only [h0, if_false, hw0, ne_eq, not_true_eq_false] at e3
        split at e3
        · cases e3
        · split at e3
          · cases e3
          · next hg1 hg2 =>
            have hlen : ((d.drop s.r.pos).take size).length = size := by
              have := List.length_take_le size (d.drop s.r.pos)
              omega
            simp only [Prod.mk.injEq, Out.ok.injEq] at e3
            rw [hlen] at e3
            obtain ⟨rfl, rfl⟩ := e3
            have hs' : s' = { s with r := { s.r with pos := s.r.pos + size } } := by
              simp only [hw0]
              split at e4
              · cases e4; rfl
              · cases e4; rfl
            subst hs'
            refine ⟨by simp, hw, ?_⟩
            intro hE
            simp only at hE
            have hle := ha.right
            have hsm := ha.small
            rw [M.bind_ok (s' := s) (a := true) (by
              unfold liftR
              rw [readerHasSize_intro hw0 (by unfold sub64; simp only [U64] at *; omega)])]
            simp only [not_true_eq_false, if_false]
            rw [if_neg hal, liftR_bind]
            have hcn : liftR (readFull d' size) s =
                (.ok ((d.drop s.r.pos).take size), { s with r := { s.r with pos := s.r.pos + size } }) := by
              unfold liftR readFull
              simp only [h0, if_false, hw0, ne_eq, not_true_eq_false]
              rw [← ha.slice hE, hlen, if_neg (by omega), if_neg (by omega)]
            rw [M.bind_ok hcn]
            simp only [hw0] at e4 ⊢
            exact e4

theorem sim_onRead (ha : Agree E d d') (h : Hook) (name : String) (lft : Nat) (sv : SV) :
    Sim d.length E (liftR (onRead h d name lft sv)) (liftR (onRead h d' name lft sv)) := by
  cases h with
  | none => exact Sim.pure _
  | emsg =>
    simp only [onRead]
    split
    · exact Sim.pure _
    · split
      · exact Sim.pure _
      · split
        · rw [liftR_bind, liftR_bind]
          refine (sim_stringZ' ha).bind fun a => ?_
          rw [liftR_bind, liftR_bind]
          exact (sim_stringZ' ha).bind fun b => Sim.pure _
        · exact Sim.pure _
  | hdlr =>
    simp only [onRead]
    split
    · unfold hdlrOnReadName
      by_cases h0 : lft / 8 = 0
      · simp only [h0, if_true]
        exact Sim.pure _
      · simp only [h0, if_false]
        exact sim_checked ha _ _ _ h0
    · exact Sim.pure _
  | avcc =>
    simp only [onRead]
    split
    · exact Sim.pure _
    · exact Sim.pure _

theorem sim_structInternal {α : Type} {size8 : Nat} {fi : Field} {m m' : Nat → UM α}
    (h : ∀ size8, Sim L E (m size8) (m' size8)) : Sim L E (structInternal size8 fi m) (structInternal size8 fi m') := by
  unfold structInternal
  split
  · refine ⟨?_, ?_, ?_⟩
    rotate_left
    · intro s a s' hw hm hs
      unfold sizedStruct at hm
      cases hr : m (fi.size % U64) { s with rbits := 0 } with
      | mk o st =>
        rw [hr] at hm
        cases o with
        | ok x =>
          simp only at hm
          split at hm
          · cases hm
          · cases hm
            exact (h _).keep { s with rbits := 0 } _ st (by exact hw) hr hs
        | err _ => cases hm
        | panic => cases hm
        | hang => cases hm
    · intro s hw hs hE hh
      have hn : (m (fi.size % U64) { s with rbits := 0 }).1 = .hang := by
        unfold sizedStruct at hh
        cases hr : m (fi.size % U64) { s with rbits := 0 } with
        | mk o st =>
          rw [hr] at hh
          cases o with
          | ok x =>
            simp only at hh
            split at hh <;> cases hh
          | err _ => cases hh
          | panic => cases hh
          | hang => rfl
      have := (h _).hang _ (by exact hw) (by exact hs) hE hn
      unfold sizedStruct
      cases hr : m' (fi.size % U64) { s with rbits := 0 } with
      | mk o st =>
        rw [hr] at this
        simp only at this
        subst this
        rfl
    intro s a s' hw hm
    unfold sizedStruct at hm ⊢
    cases hr : m (fi.size % U64) { s with rbits := 0 } with
    | mk o st =>
      rw [hr] at hm
      cases o with
      | ok x =>
        simp only at hm
        split at hm
        · cases hm
        · next hsz =>
          cases hm
          obtain ⟨p1, w1, q1⟩ := (h _).ok _ _ _ (by exact hw) hr
          refine ⟨p1, w1, ?_⟩
          intro hE
          rw [q1 hE]
          simp only
          rw [if_neg hsz]
      | err _ => cases hm
      | panic => cases hm
      | hang => cases hm
  · exact h _

theorem sim_arrLoop {f f' : Val → UM Val} (h : ∀ x, Sim L E (f x) (f' x)) : ∀ l, Sim L E (arrLoop f l) (arrLoop f' l)
  | [] => by unfold arrLoop; exact Sim.pure _
  | c :: cs => by
    unfold arrLoop
    exact (h c).bind fun _ => (sim_arrLoop h cs).bind fun _ => Sim.pure _

theorem sim_sliceElem {size8 : Nat} {f f' : UM Val} (h : Sim L E f f') : Sim L E (sliceElem size8 f) (sliceElem size8 f') := by
  unfold sliceElem
  refine h.bind fun _ => Sim.get fun _ => ?_
  apply Sim.ite
  · intro _; exact Sim.fail _ _
  · intro _; exact Sim.pure _

theorem sim_countLoop {size8 : Nat} {f f' : UM Val} (h : Sim L E f f') : ∀ n,
    Sim L E (countLoop size8 f n) (countLoop size8 f' n)
  | 0 => Sim.pure _
  | n + 1 => by
    unfold countLoop
    exact (sim_sliceElem h).bind fun _ => (sim_countLoop h n).bind fun _ => Sim.pure _

theorem sim_greedyLoop {size8 : Nat} {f f' : UM Val} (h : Sim L E f f') : ∀ n,
    Sim L E (greedyLoop size8 f n) (greedyLoop size8 f' n)
  | 0 => Sim.hangs
  | n + 1 => by
    unfold greedyLoop
    refine Sim.get fun _ => ?_
    apply Sim.ite
    · intro _; exact Sim.pure _
    · intro _
      exact (sim_sliceElem h).bind fun _ => (sim_greedyLoop h n).bind fun _ => Sim.pure _

theorem sim_slice (ha : Agree E d d') {size8 : Nat} {isByte : Bool} {fi : Field} {f f' : UM Val} (h : Sim d.length E f f') :
    Sim d.length E (unmarshalSlice d size8 isByte fi f) (unmarshalSlice d' size8 isByte fi f') := by
  unfold unmarshalSlice
  apply Sim.get
  intro s
  apply Sim.ite
  · intro _; exact Sim.fail _ _
  · intro _
    apply Sim.ite
    · intro _; exact sim_byteSlice ha _
    · intro _
      apply Sim.ite
      · intro _; exact (sim_greedyLoop h _).bind fun _ => Sim.pure _
      · intro _; exact (sim_countLoop h _).bind fun _ => Sim.pure _

end

mutual
theorem sim_V {E : Nat} {d d' : Bytes} (ha : Agree E d d') (ex : List String) : ∀ (t : Ty) (e : UEnv) (fi : Field) (cur : Val),
    e.d = d → t.plain ex = true → fi.strCP = false →
    Sim d.length E (unmarshalV e t fi cur) (unmarshalV { e with d := d' } t fi cur)
  | .ptr t, e, fi, cur, hed, hp, hcp => by
    simp only [Ty.plain] at hp
    simp only [unmarshalV]
    exact (sim_V ha ex t e fi t.zero hed hp hcp).bind fun _ => Sim.pure _
  | .struct c fs, e, fi, cur, hed, hp, hcp => by
    simp only [Ty.plain] at hp
    simp only [unmarshalV]
    cases cur with
    | struct sv =>
      apply sim_structInternal
      intro size8
      exact (sim_fields ha ex fs { e with size8 := size8 } c c sv hed hp).bind fun _ => Sim.pure _
    | _ => exact Sim.panic _
  | .arr n t, e, fi, cur, hed, hp, hcp => by
    simp only [Ty.plain] at hp
    simp only [unmarshalV]
    cases cur with
    | arr l => exact (sim_arrLoop (fun x => sim_V ha ex t e fi x hed hp hcp) l).bind fun _ => Sim.pure _
    | _ => exact Sim.panic _
  | .slice t, e, fi, cur, hed, hp, hcp => by
    simp only [Ty.plain] at hp
    simp only [unmarshalV]
    rw [hed]
    exact sim_slice ha (sim_V ha ex t e fi t.zero hed hp hcp)
  | .int w, e, fi, cur, hed, hp, hcp => by
    simp only [unmarshalV]
    rw [hed]
    exact sim_int ha w fi
  | .uint w, e, fi, cur, hed, hp, hcp => by
    simp only [unmarshalV]
    rw [hed]
    exact sim_uint ha w fi
  | .bool, e, fi, cur, hed, hp, hcp => by
    simp only [unmarshalV]
    rw [hed]
    exact sim_bool ha fi
  | .str, e, fi, cur, hed, hp, hcp => by
    simp only [unmarshalV]
    rw [hed]
    exact sim_string ha e.size8 fi hcp
theorem sim_fields {E : Nat} {d d' : Bytes} (ha : Agree E d d') (ex : List String) : ∀ (fs : Fields) (e : UEnv)
    (c c0 : Option Cfo) (cur : SV), e.d = d → fs.plain ex c0 = true →
    Sim d.length E (unmarshalFields e false c fs cur) (unmarshalFields { e with d := d' } false c fs cur)
  | .nil, e, c, c0, cur, hed, hp => by
    simp only [unmarshalFields]
    exact Sim.pure _
  | .cons f t fs, e, c, c0, cur, hed, hp => by
    simp only [Fields.plain, Bool.and_eq_true] at hp
    obtain ⟨⟨⟨hcp, _⟩, hpt⟩, hpf⟩ := hp
    simp only [unmarshalFields, Bool.false_eq_true, if_false, false_and]
    cases hres : resolve (c.getD e.cfo) e.ctx (if c.isSome then cur else e.root) f with
    | none => exact Sim.panic _
    | some fi =>
      have hcp' : fi.strCP = false := by
        obtain ⟨size, length, hfi, _⟩ := resolve_eta hres
        rw [hfi]; simpa using hcp
      simp only
      apply Sim.ite
      · intro _; exact sim_fields ha ex fs e c c0 cur hed hpf
      · intro _
        refine Sim.get fun st => (Sim.pure _).bind fun x => Sim.addR.bind fun _ => ?_
        apply Sim.ite
        · intro _; exact sim_fields ha ex fs e c c0 _ hed hpf
        · intro _
          cases x.2.2.get f.name with
          | none => exact Sim.panic _
          | some y =>
            exact (sim_V ha ex t e fi y hed hpt hcp').bind fun v => sim_fields ha ex fs e c c0 _ hed hpf
end

theorem sim_top {E : Nat} {d d' : Bytes} (ha : Agree E d d') (ex : List String) : ∀ (fs : Fields) (e : UEnv)
    (c c0 : Option Cfo) (cur : SV), e.d = d → fs.plain ex c0 = true →
    Sim d.length E (unmarshalFields e true c fs cur) (unmarshalFields { e with d := d' } true c fs cur)
  | .nil, e, c, c0, cur, hed, hp => by
    simp only [unmarshalFields]
    exact Sim.pure _
  | .cons f t fs, e, c, c0, cur, hed, hp => by
    simp only [Fields.plain, Bool.and_eq_true] at hp
    obtain ⟨⟨⟨hcp, _⟩, hpt⟩, hpf⟩ := hp
    simp only [unmarshalFields, if_true, true_and, ite_self]
    cases hres : resolve (c.getD e.cfo) e.ctx cur f with
    | none => exact Sim.panic _
    | some fi =>
      have hcp' : fi.strCP = false := by
        obtain ⟨size, length, hfi, _⟩ := resolve_eta hres
        rw [hfi]; simpa using hcp
      simp only
      apply Sim.ite
      · intro _; exact sim_top ha ex fs e c c0 cur hed hpf
      · intro _
        refine Sim.get fun st => ?_
        rw [show onRead e.hook e.d = onRead e.hook d by rw [hed]]
        refine (sim_onRead ha _ _ _ _).bind fun x => Sim.addR.bind fun _ => ?_
        apply Sim.ite
        · intro _; exact sim_top ha ex fs e c c0 _ hed hpf
        · intro _
          cases x.2.2.get f.name with
          | none => exact Sim.panic _
          | some y =>
            refine (sim_V ha ex t { e with root := x.2.2 } fi y hed hpt hcp').bind fun v => ?_
            apply Sim.ite
            · intro _; exact Sim.fail _ _
            · intro _; exact sim_top ha ex fs e c c0 _ hed hpf

end Mp4
