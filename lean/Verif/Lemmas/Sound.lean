import Verif.Spec.Counts
import Verif.Lemmas.SafeTop
import Verif.Lemmas.Catalog

/-!
# What was decoded is what the bits say

For a run of the unmarshaller that succeeds, the bits consumed are compared with the layout of the value
decoded.
-/

namespace Mp4

open Spec

/-! ## bits and layout -/

/-- The bits are those of the layout, unless one is longer than the other (`dir` says which one can be longer). -/
def SQ (dir : Bool) (bs l : List Bool) : Prop :=
  (if dir then bs.length ≤ l.length else l.length ≤ bs.length) ∧ (bs.length = l.length → bs = l)

theorem SQ.refl (dir : Bool) (l : List Bool) : SQ dir l l := by
  unfold SQ
  cases dir <;> simp

theorem SQ.append {dir : Bool} {a b c d : List Bool} (h1 : SQ dir a b) (h2 : SQ dir c d) :
    SQ dir (a ++ c) (b ++ d) := by
  unfold SQ at *
  simp only [List.length_append]
  cases dir with
  | true =>
    simp only [if_true] at *
    refine ⟨by omega, fun h => ?_⟩
    rw [h1.2 (by omega), h2.2 (by omega)]
  | false =>
    simp only [Bool.false_eq_true, if_false] at *
    refine ⟨by omega, fun h => ?_⟩
    rw [h1.2 (by omega), h2.2 (by omega)]

theorem SQ.flatten {dir : Bool} {g : Val → List Bool} : ∀ {bss : List (List Bool)} {l : List Val},
    bss.length = l.length → (∀ p ∈ bss.zip l, SQ dir p.1 (g p.2)) → SQ dir bss.flatten (l.flatMap g)
  | [], [], _, _ => SQ.refl _ _
  | b :: bss, v :: l, hl, h => by
    rw [List.flatten_cons, List.flatMap_cons]
    refine SQ.append (h (b, v) (by simp)) (SQ.flatten (by simpa using hl) (fun p hp => h p (by simp [hp])))
  | [], _ :: _, hl, _ => by simp at hl
  | _ :: _, [], hl, _ => by simp at hl

/-! ## runs that succeed -/

/-- If the run succeeds, the result is related by `Q` to the bits consumed. -/
def OkPost {α : Type} (d : Bytes) (Q : List Bool → α → Prop) (s : USt) (x : Out α × USt) : Prop :=
  ∀ a s', x = (.ok a, s') →
    ∃ bs, s.r.rem d = bs ++ s'.r.rem d ∧ s'.r.WF d ∧ s'.rbits = s.rbits + bs.length ∧ Q bs a

namespace OkPost
variable {α β : Type} {d : Bytes} {Q : List Bool → α → Prop} {s : USt}

theorem of_post {nh : Prop} {x : Out α × USt} (h : Post d nh Q s x) : OkPost d Q s x := by
  intro a s' hx
  subst hx
  exact h

theorem pure {a : α} (hw : s.r.WF d) (h : Q [] a) : OkPost d Q s ((Pure.pure a : UM α) s) :=
  of_post (nh := True) (Post.pure hw h)

theorem fail (e : Err) : OkPost d Q s ((M.fail e : UM α) s) := by
  intro a s' h
  cases h

theorem panic : OkPost d Q s ((M.panic : UM α) s) := by
  intro a s' h
  cases h

theorem hang : OkPost d Q s ((M.hang : UM α) s) := by
  intro a s' h
  cases h

theorem mono {Q' : List Bool → α → Prop} {x : Out α × USt} (h : OkPost d Q s x) (hq : ∀ bs a, Q bs a → Q' bs a) :
    OkPost d Q' s x := by
  intro a s' hx
  obtain ⟨bs, h1, h2, h3, h4⟩ := h a s' hx
  exact ⟨bs, h1, h2, h3, hq _ _ h4⟩

theorem bind {Q1 : List Bool → α → Prop} {Q2 : List Bool → β → Prop} {m : UM α} {k : α → UM β}
    (h1 : OkPost d Q1 s (m s))
    (h2 : ∀ bs a s', Q1 bs a → s.r.rem d = bs ++ s'.r.rem d → s'.r.WF d → s'.rbits = s.rbits + bs.length →
      OkPost d (fun bs' b => Q2 (bs ++ bs') b) s' (k a s')) :
    OkPost d Q2 s ((m >>= k) s) := by
  intro b s' hx
  obtain ⟨a, s1, e1, e2⟩ := bind_ok_inv hx
  obtain ⟨bs, r1, w1, c1, q1⟩ := h1 a s1 e1
  obtain ⟨bs2, r2, w2, c2, q2⟩ := h2 bs a s1 q1 r1 w1 c1 b s' e2
  exact ⟨bs ++ bs2, by rw [r1, r2, List.append_assoc], w2, by rw [c2, c1, List.length_append]; omega, q2⟩

theorem get {k : USt → UM α} (h : OkPost d Q s (k s s)) : OkPost d Q s ((M.get >>= k) s) := by
  rw [M.bind_run]
  exact h

theorem map {Q2 : List Bool → β → Prop} {m : UM α} {g : α → β} (h1 : OkPost d (fun bs a => Q2 bs (g a)) s (m s)) :
    OkPost d Q2 s ((do let v ← m; Pure.pure (g v)) s) := by
  refine bind h1 ?_
  intro bs a s' q _ hw _
  exact OkPost.pure hw (by simpa using q)

end OkPost

section
variable {α : Type} {d : Bytes} {s : USt}

theorem okp_bits {Q : List Bool → α → Prop} {n : Nat} {k : Bytes → UM α} (hw : s.r.WF d)
    (h : ∀ bs out s', bs.length = n → bytesBits out = List.replicate ((n + 7) / 8 * 8 - n) false ++ bs →
      s.r.rem d = bs ++ s'.r.rem d → s'.r.WF d → s'.rbits = s.rbits + n →
      OkPost d (fun bs' b => Q (bs ++ bs') b) s' (k out s')) :
    OkPost d Q s ((do let x ← liftR (readBits d n); addR n; k x) s) := by
  intro a s' hx
  by_cases hl : (s.r.rem d).length < n
  · obtain ⟨r', h1, _, _⟩ := readBits_eof hw hl
    rw [M.bind_err (s' := { s with r := r' }) (e := .eof) (by simp [liftR, h1])] at hx
    cases hx
  · obtain ⟨out, r', h1, h2, h3, h4⟩ := readBits_ok (size := n) (bs := (s.r.rem d).take n) (t := (s.r.rem d).drop n) hw
      (by rw [List.take_append_drop]) (by rw [List.length_take]; omega)
    rw [M.bind_ok (s' := { s with r := r' }) (a := out) (by simp [liftR, h1])] at hx
    rw [M.bind_ok (s' := ⟨r', s.rbits + n⟩) (a := ()) (by simp [addR])] at hx
    have hlen : ((s.r.rem d).take n).length = n := by rw [List.length_take]; omega
    have he : s.r.rem d = (s.r.rem d).take n ++ r'.rem d := by rw [h2, List.take_append_drop]
    obtain ⟨bs2, e2, w2, c2, q2⟩ := h ((s.r.rem d).take n) out ⟨r', s.rbits + n⟩ hlen h4 he h3 rfl a s' hx
    simp only at e2 c2
    refine ⟨_, ?_, w2, ?_, q2⟩
    · rw [List.append_assoc, ← e2]; exact he
    · rw [c2, List.length_append, hlen]; omega

theorem okp_bitsA {Q : List Bool → α → Prop} {n : Nat} {k : Bytes → UM α} (hw : s.r.WF d)
    (h : ∀ bs out s', bs.length = n → bytesBits out = List.replicate ((n + 7) / 8 * 8 - n) false ++ bs →
      s.r.rem d = bs ++ s'.r.rem d → s'.r.WF d → s'.rbits = s.rbits + n →
      OkPost d (fun bs' b => Q (bs ++ bs') b) s' (k out s')) :
    OkPost d Q s ((do let x ← readBitsA d n; addR n; k x) s) := by
  by_cases hn : (n + 7) / 8 ≤ maxAlloc
  · have : readBitsA d n = liftR (readBits d n) := by
      unfold readBitsA alloc
      rw [if_pos hn]
      rfl
    rw [this]
    exact okp_bits hw h
  · intro a s' hx
    obtain ⟨x, s1, e1, _⟩ := bind_ok_inv hx
    unfold readBitsA alloc at e1
    rw [if_neg hn] at e1
    cases e1

/-! ## numbers -/

theorem signed_natBits {bs : List Bool} {i : Int} (h : i = toSigned bs.length (bitsNat bs)) :
    natBits bs.length (i % (2 ^ bs.length : Nat)).toNat = bs := by
  have hlt := bitsNat_lt bs
  have hi : (i % (2 ^ bs.length : Nat)).toNat = bitsNat bs := by
    rw [h]
    unfold toSigned
    simp only
    rw [Nat.mod_eq_of_lt hlt]
    generalize (2 : Nat) ^ bs.length = P at *
    generalize bitsNat bs = m at *
    split
    · rw [Int.emod_eq_of_lt (by omega) (by omega)]; simp
    · rw [← Int.add_emod_right, Int.sub_add_cancel, Int.emod_eq_of_lt (by omega) (by omega)]; simp
  rw [hi]
  exact natBits_bitsNat bs

/-- the number that sign extension makes of some bits -/
theorem int_value {bs : List Bool} {out : Bytes} {w : Nat} {fi : Field} (hl : bs.length = fi.size)
    (ho : bytesBits out = List.replicate ((fi.size + 7) / 8 * 8 - fi.size) false ++ bs) (hv : fi.varint = false)
    (h0 : 0 < fi.size) (hsw : fi.size ≤ w) (hw : w ≤ 64) :
    toSigned w (accBytes (if (out.headD 0#8 &&& (1#8 <<< ((fi.size - 1) % 8))) != 0#8 then U64 - 1 else 0)
      (if (out.headD 0#8 &&& (1#8 <<< ((fi.size - 1) % 8))) != 0#8 then
        out.modify 0 (fun b => b ||| ~~~((1#8 <<< ((fi.size - 1) % 8)) - 1#8)) else out)) =
      toSigned bs.length (bitsNat bs) := by
  have hr := toSigned_range (w := fi.size) h0 (bitsNat bs)
  rw [← hl] at hr
  have hbits := signed_natBits (bs := bs) rfl
  generalize hi : toSigned bs.length (bitsNat bs) = i at *
  rw [hl] at hr hbits
  -- run the decoder on these bits alone
  let pad := (8 - fi.size % 8) % 8
  have hpad : (bs ++ List.replicate pad false).length % 8 = 0 := by
    rw [List.length_append, List.length_replicate, hl]; simp only [pad]; omega
  let d0 := bitsBytes (bs ++ List.replicate pad false)
  have hd0 : bytesBits d0 = bs ++ List.replicate pad false := bytesBits_bitsBytes _ hpad
  have hdl : 8 * d0.length = fi.size + pad := by
    have := congrArg List.length hd0
    rw [bytesBits_length, List.length_append, List.length_replicate, hl] at this
    exact this
  have hrem : (RSt.fresh 0).rem d0 = bs ++ List.replicate pad false := by
    rw [RSt.rem_aligned (by simp [RSt.fresh])]
    exact hd0
  have hdec := decodes_int (d := d0) (size8 := 8 * d0.length) (left := 8 * d0.length) (w := w) (fi := fi) (i := i)
    (by simp only [maxAlloc]; simp only [pad] at hdl; omega) hv h0 hsw hw hr.1 hr.2
  obtain ⟨s', e1, _⟩ := hdec ⟨RSt.fresh 0, 0⟩ (List.replicate pad false) (RSt.fresh_wf (by simp)) (by simp)
    (by simp [RSt.fresh]) (by rw [hbits]; exact hrem) (by rw [natBits_length]; omega)
  obtain ⟨out', r', h1, _, _, h4⟩ := readBits_ok (d := d0) (s := RSt.fresh 0) (size := fi.size) (bs := bs)
    (t := List.replicate pad false) (RSt.fresh_wf (by simp)) hrem hl
  have hout : out' = out := bytesBits_inj (h4.trans ho.symm)
  subst hout
  unfold unmarshalInt at e1
  rw [hv] at e1
  simp only [Bool.false_eq_true, if_false] at e1
  rw [if_neg (by omega), readBitsA_eq (by simp only [maxAlloc]; omega),
    M.bind_ok (s' := ⟨r', 0⟩) (a := out') (by simp [liftR, h1]),
    M.bind_ok (s' := ⟨r', 0 + fi.size⟩) (a := ()) (by simp [addR])] at e1
  injection e1 with e1 _
  injection e1 with e1
  injection e1 with e1

end

end Mp4
