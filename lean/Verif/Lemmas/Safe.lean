import Verif.Spec.Typed
import Verif.Lemmas.MarshalErr
import Verif.Lemmas.Decode

/-!
# What every run of the unmarshaller does

A run from a reachable state does not panic; when it succeeds, it has consumed a number of bits that it has counted
exactly, and its result satisfies a given relation to these bits.
-/

namespace Mp4

open Spec

/-- Not a panic, no endless loop if `nh`; on success the result is related by `Q` to the bits consumed, which
are exactly the ones counted. -/
def Post {α : Type} (d : Bytes) (nh : Prop) (Q : List Bool → α → Prop) (s : USt) : Out α × USt → Prop
  | (.ok a, s') => ∃ bs, s.r.rem d = bs ++ s'.r.rem d ∧ s'.r.WF d ∧ s'.rbits = s.rbits + bs.length ∧ Q bs a
  | (.err _, _) => True
  | (.panic, _) => False
  | (.hang, _) => ¬ nh

namespace Post
variable {α β : Type} {d : Bytes} {nh : Prop} {Q : List Bool → α → Prop} {s : USt}

theorem pure {a : α} (hw : s.r.WF d) (h : Q [] a) : Post d nh Q s ((Pure.pure a : UM α) s) :=
  ⟨[], by simp, hw, by simp, h⟩

theorem fail (e : Err) : Post d nh Q s ((M.fail e : UM α) s) := trivial

theorem mono {Q' : List Bool → α → Prop} {x : Out α × USt} (h : Post d nh Q s x) (hq : ∀ bs a, Q bs a → Q' bs a) :
    Post d nh Q' s x := by
  match x, h with
  | (.ok a, s'), ⟨bs, h1, h2, h3, h4⟩ => exact ⟨bs, h1, h2, h3, hq _ _ h4⟩
  | (.err _, _), _ => trivial
  | (.panic, _), h => exact h.elim
  | (.hang, _), h => exact h

theorem bind {Q1 : List Bool → α → Prop} {Q2 : List Bool → β → Prop} {m : UM α} {k : α → UM β}
    (h1 : Post d nh Q1 s (m s))
    (h2 : ∀ bs a s', Q1 bs a → s.r.rem d = bs ++ s'.r.rem d → s'.r.WF d → s'.rbits = s.rbits + bs.length →
      Post d nh (fun bs' b => Q2 (bs ++ bs') b) s' (k a s')) :
    Post d nh Q2 s ((m >>= k) s) := by
  rw [M.bind_run]
  cases hm : m s with
  | mk r s1 =>
    rw [hm] at h1
    match r, h1 with
    | .ok a, ⟨bs, e1, w1, c1, q1⟩ =>
      have := h2 bs a s1 q1 e1 w1 c1
      simp only
      cases hk : k a s1 with
      | mk r2 s2 =>
        rw [hk] at this
        match r2, this with
        | .ok b, ⟨bs2, e2, w2, c2, q2⟩ =>
          exact ⟨bs ++ bs2, by rw [e1, e2, List.append_assoc], w2, by rw [c2, c1, List.length_append]; omega, q2⟩
        | .err _, _ => trivial
        | .panic, h => exact h.elim
        | .hang, h => exact h
    | .err _, _ => trivial
    | .panic, h => exact h.elim
    | .hang, h => exact h

theorem get {k : USt → UM α} (h : Post d nh Q s (k s s)) : Post d nh Q s ((M.get >>= k) s) := by
  rw [M.bind_run]
  exact h

theorem map {Q2 : List Bool → β → Prop} {m : UM α} {g : α → β} (h1 : Post d nh (fun bs a => Q2 bs (g a)) s (m s)) :
    Post d nh Q2 s ((do let v ← m; Pure.pure (g v)) s) := by
  refine bind h1 ?_
  intro bs a s' q _ hw _
  exact Post.pure hw (by simpa using q)

end Post

section
variable {α : Type} {d : Bytes} {nh : Prop} {s : USt}

/-- reading a number of bits and counting them -/
theorem post_bits {Q : List Bool → α → Prop} {n : Nat} {k : Bytes → UM α} (hw : s.r.WF d)
    (h : ∀ bs out s', bs.length = n → bytesBits out = List.replicate ((n + 7) / 8 * 8 - n) false ++ bs →
      s.r.rem d = bs ++ s'.r.rem d → s'.r.WF d → s'.rbits = s.rbits + n →
      Post d nh (fun bs' b => Q (bs ++ bs') b) s' (k out s')) :
    Post d nh Q s ((do let x ← liftR (readBits d n); addR n; k x) s) := by
  by_cases hl : (s.r.rem d).length < n
  · obtain ⟨r', h1, _, _⟩ := readBits_eof hw hl
    rw [M.bind_err (s' := { s with r := r' }) (e := .eof) (by simp [liftR, h1])]
    trivial
  · obtain ⟨out, r', h1, h2, h3, h4⟩ := readBits_ok (size := n) (bs := (s.r.rem d).take n) (t := (s.r.rem d).drop n) hw
      (by rw [List.take_append_drop]) (by rw [List.length_take]; omega)
    rw [M.bind_ok (s' := { s with r := r' }) (a := out) (by simp [liftR, h1])]
    rw [M.bind_ok (s' := ⟨r', s.rbits + n⟩) (a := ()) (by simp [addR])]
    have hlen : ((s.r.rem d).take n).length = n := by rw [List.length_take]; omega
    have he : s.r.rem d = (s.r.rem d).take n ++ r'.rem d := by rw [h2, List.take_append_drop]
    have := h ((s.r.rem d).take n) out ⟨r', s.rbits + n⟩ hlen h4 he h3 rfl
    cases hk : k out ⟨r', s.rbits + n⟩ with
    | mk r2 s2 =>
      rw [hk] at this
      match r2, this with
      | .ok b, ⟨bs2, e2, w2, c2, q2⟩ =>
        refine ⟨_, ?_, w2, ?_, q2⟩
        · simp only at e2
          rw [List.append_assoc, ← e2]; exact he
        · simp only at c2
          rw [c2, List.length_append, hlen]; omega
      | .err _, _ => trivial
      | .panic, h => exact h.elim
      | .hang, h => exact h

theorem readBitsA_eq {n : Nat} (hn : n ≤ 8 * maxAlloc) : readBitsA d n = liftR (readBits d n) := by
  unfold readBitsA alloc
  rw [if_pos (by omega)]
  rfl

/-! ## numbers -/

theorem toSigned_range {w : Nat} (hw : 0 < w) (n : Nat) :
    -((2 ^ (w - 1) : Nat) : Int) ≤ toSigned w n ∧ toSigned w n < ((2 ^ (w - 1) : Nat) : Int) := by
  unfold toSigned
  have h2 : 2 ^ w = 2 * 2 ^ (w - 1) := by
    obtain ⟨k, rfl⟩ : ∃ k, w = k + 1 := ⟨w - 1, by omega⟩
    rw [Nat.pow_succ]; simp; omega
  have hlt : n % 2 ^ w < 2 ^ w := Nat.mod_lt _ (Nat.two_pow_pos w)
  rw [h2] at hlt ⊢
  simp only
  generalize n % (2 * 2 ^ (w - 1)) = m at *
  generalize 2 ^ (w - 1) = p at *
  split <;> omega

theorem post_int {w : Nat} {fi : Field} (hw : s.r.WF d) (h0 : 0 < w) (hs : fi.size ≤ 8 * maxAlloc) :
    Post d nh (fun bs v => bs.length = fi.size ∧ 1 ≤ bs.length ∧
      ∃ i, v = .int i ∧ -((2 ^ (w - 1) : Nat) : Int) ≤ i ∧ i < ((2 ^ (w - 1) : Nat) : Int)) s (unmarshalInt d w fi s) := by
  unfold unmarshalInt
  split
  · exact Post.fail _
  · split
    · exact Post.fail _
    · rw [readBitsA_eq hs]
      apply post_bits hw
      intro bs out s' hl _ _ hw' _
      refine Post.pure hw' ?_
      simp only [List.append_nil]
      refine ⟨hl, by omega, _, rfl, toSigned_range h0 _⟩

theorem post_uvarint {Q : List Bool → Nat → Prop} : ∀ (fuel val : Nat) (s : USt), s.r.WF d →
    (s.r.rem d).length < 8 * fuel → (∀ bs v, 8 ≤ bs.length → Q bs v) →
    Post d nh Q s (readUvarint d fuel val s)
  | 0, _, s, hw, hf, _ => by omega
  | fuel + 1, val, s, hw, hf, hQ => by
    unfold readUvarint
    apply post_bits hw
    intro bs out s' hl _ hr hw' _
    change Post d nh _ s' ((if out.headD 0#8 &&& 0x80#8 = 0#8
      then (Pure.pure ((val * 128 + (out.headD 0#8 &&& 0x7f#8).toNat) % U64) : UM Nat)
      else readUvarint d fuel ((val * 128 + (out.headD 0#8 &&& 0x7f#8).toNat) % U64)) s')
    split
    · exact Post.pure hw' (hQ _ _ (by rw [List.append_nil]; omega))
    · apply post_uvarint fuel _ s' hw'
      · have := congrArg List.length hr
        rw [List.length_append] at this
        omega
      · intro bs' v _
        exact hQ _ _ (by rw [List.length_append]; omega)

theorem post_uint {w : Nat} {fi : Field} (hw : s.r.WF d) (hs : fi.size ≤ 8 * maxAlloc) :
    Post d nh (fun bs v => 1 ≤ bs.length ∧ ∃ n, v = .uint n ∧ n < 2 ^ w ∧
      (fi.varint = false → bs.length = fi.size ∧ n = bitsNat bs % U64 % 2 ^ w)) s (unmarshalUint d w fi s) := by
  unfold unmarshalUint
  split
  · next hv =>
    refine Post.map (g := fun v => Val.uint (v % 2 ^ w)) ?_
    apply post_uvarint
    · exact hw
    · rw [RSt.rem_length]
      have := hw.width
      omega
    · intro bs v h8
      exact ⟨by omega, _, rfl, Nat.mod_lt _ (Nat.two_pow_pos w), fun h => by rw [hv] at h; simp at h⟩
  · split
    · exact Post.fail _
    · rw [readBitsA_eq hs]
      apply post_bits hw
      intro bs out s' hl ho _ hw' _
      refine Post.pure hw' ?_
      simp only [List.append_nil]
      refine ⟨by omega, _, rfl, Nat.mod_lt _ (Nat.two_pow_pos w), fun _ => ⟨hl, ?_⟩⟩
      rw [accBytes_eq _ _ (by decide), ho]
      simp

theorem post_bool {fi : Field} (hw : s.r.WF d) (hs : fi.size ≤ 8 * maxAlloc) :
    Post d nh (fun bs v => bs.length = fi.size ∧ 1 ≤ bs.length ∧ ∃ out, v = .bool (out.any (fun b => b != 0#8)) ∧
      bytesBits out = List.replicate ((fi.size + 7) / 8 * 8 - fi.size) false ++ bs) s (unmarshalBool d fi s) := by
  unfold unmarshalBool
  split
  · exact Post.fail _
  · rw [readBitsA_eq hs]
    apply post_bits hw
    intro bs out s' hl ho _ hw' _
    refine Post.pure hw' ?_
    simp only [List.append_nil]
    exact ⟨hl, by omega, out, rfl, ho⟩

/-! ## strings -/

theorem headD_of_octet {bs : List Bool} {out : Bytes} (hl : bs.length = 8)
    (ho : bytesBits out = List.replicate ((8 + 7) / 8 * 8 - 8) false ++ bs) : byteBits (out.headD 0#8) = bs := by
  simp only [Nat.reduceAdd, Nat.reduceDiv, Nat.reduceMul, Nat.sub_self, List.replicate_zero, List.nil_append] at ho
  have := congrArg List.length ho
  rw [bytesBits_length, hl] at this
  match out, this with
  | [b], _ => simpa using ho

/-- what the loop reads: text without NUL, then a NUL, or the end of the payload -/
def CStr (size8 rbits : Nat) (bs : List Bool) (b : Bytes) : Prop :=
  noNul b = true ∧ (bs = bytesBits b ++ List.replicate 8 false ∨ (bs = bytesBits b ∧ size8 ≤ rbits + bs.length))

theorem post_stringCLoop (size8 : Nat) : ∀ (fuel : Nat) (s : USt), s.r.WF d → size8 < fuel + s.rbits → 1 ≤ fuel →
    Post d nh (fun bs b => CStr size8 s.rbits bs b) s (stringCLoop d size8 fuel s)
  | 0, s, hw, hf, h1 => by omega
  | fuel + 1, s, hw, hf, h1 => by
    unfold stringCLoop
    apply Post.get
    split
    · next h => exact Post.pure hw ⟨rfl, Or.inr ⟨rfl, by simpa using h⟩⟩
    · next h =>
      apply post_bits hw
      intro bs out s' hl ho hr hw' hc
      have hb := headD_of_octet hl ho
      split
      · next h0 =>
        refine Post.pure hw' ⟨rfl, Or.inl ?_⟩
        rw [h0] at hb
        rw [← hb]
        rfl
      · next h0 =>
        refine Post.map (g := fun rest => out.headD 0#8 :: rest) ?_
        refine (post_stringCLoop size8 fuel s' hw' (by omega) (by omega)).mono ?_
        intro bs' b ⟨hn, hq⟩
        refine ⟨?_, ?_⟩
        · unfold noNul at hn ⊢
          simp only [List.all_cons, Bool.and_eq_true]
          exact ⟨by simpa using h0, hn⟩
        · rcases hq with hq | ⟨hq, hle⟩
          · left
            rw [hq, bytesBits_cons, hb, List.append_assoc]
          · right
            refine ⟨by rw [hq, bytesBits_cons, hb], ?_⟩
            rw [List.length_append, hl]
            omega

theorem post_stringC {size8 : Nat} (hw : s.r.WF d) :
    Post d nh (fun bs v => ∃ b, v = .str b ∧ CStr size8 s.rbits bs b) s (unmarshalStringC d size8 s) := by
  unfold unmarshalStringC
  refine Post.map (g := fun b => Val.str b) ?_
  refine (post_stringCLoop size8 _ s hw (by omega) (by omega)).mono ?_
  intro bs b h
  exact ⟨b, rfl, h⟩

theorem post_string {size8 : Nat} {fi : Field} (hw : s.r.WF d) (hcp : fi.strCP = false) :
    Post d nh (fun bs v => ∃ b, v = .str b ∧ CStr size8 s.rbits bs b) s (unmarshalString d size8 fi s) := by
  unfold unmarshalString
  rw [hcp]
  exact post_stringC hw

/-! ## reading bytes -/

theorem post_readerHasSize {Q : List Bool → α → Prop} {n : Nat} {k : Bool → UM α} (hw : s.r.WF d)
    (hd : d.length < U64)
    (ht : s.r.width = 0 → s.r.pos + n ≤ d.length → Post d nh Q s (k true s))
    (hf : ∀ s', k false s' = (.err .notEnoughBits, s')) :
    Post d nh Q s ((liftR (readerHasSize d n) >>= k) s) := by
  by_cases h0 : s.r.width = 0
  · by_cases hn : s.r.pos + n ≤ d.length
    · rw [M.bind_ok (s' := s) (a := true) (by simp [liftR, readerHasSize_ok h0 hn hd])]
      exact ht h0 hn
    · have hlt : sub64 d.length s.r.pos < n := by
        have := hw.pos
        unfold sub64
        simp only [U64] at *
        omega
      have : ∃ r', readerHasSize d n s.r = (.ok false, r') := by
        unfold readerHasSize seekCurrent
        simp only [h0, ne_eq, not_true_eq_false, if_false, seekEnd, hlt, if_true]
        exact ⟨_, rfl⟩
      obtain ⟨r', hr'⟩ := this
      rw [M.bind_ok (s' := { s with r := r' }) (a := false) (by simp [liftR, hr']), hf]
      trivial
  · have : readerHasSize d n s.r = (.ok false, s.r) := by
      unfold readerHasSize seekCurrent
      simp [h0]
    rw [M.bind_ok (s' := s) (a := false) (by simp [liftR, this]), hf]
    trivial

/-- consuming bytes -/
theorem rem_advance {r : RSt} {n : Nat} (h0 : r.width = 0) (_hn : r.pos + n ≤ d.length) :
    r.rem d = bytesBits ((d.drop r.pos).take n) ++ ({ r with pos := r.pos + n } : RSt).rem d := by
  rw [RSt.rem_aligned h0, RSt.rem_aligned (by exact h0)]
  simp only
  rw [← bytesBits_append, ← List.drop_drop, List.take_append_drop]

theorem post_byteSlice {length : Nat} (hw : s.r.WF d) (hd : d.length ≤ maxAlloc) :
    Post d nh (fun bs v => ∃ p : Bytes, v = .slice (p.map (fun b => .uint b.toNat)) ∧ bs = bytesBits p ∧
      p.length = length * 8 % U64 / 8) s (byteSlice d length s) := by
  unfold byteSlice
  generalize length * 8 % U64 / 8 = n
  apply post_readerHasSize hw (by simp only [maxAlloc, U64] at *; omega)
  · intro h0 hn
    simp only [not_true_eq_false, if_false]
    rw [M.bind_ok (s' := s) (a := ()) (by simp only [alloc]; rw [if_pos (by omega)]; rfl)]
    have hlen : ((d.drop s.r.pos).take n).length = n := by
      rw [List.length_take, List.length_drop]; omega
    have hcopy : copyN d n s.r = (.ok ((d.drop s.r.pos).take n), { s.r with pos := s.r.pos + n }) := by
      unfold copyN
      by_cases hz : n = 0
      · subst hz
        simp
      · rw [if_neg (by simp only [maxAlloc] at hd; omega), if_neg (by simp [h0])]
        simp only [hlen, Nat.lt_irrefl, if_false]
    rw [M.bind_ok (s' := ⟨{ s.r with pos := s.r.pos + n }, s.rbits⟩) (a := (d.drop s.r.pos).take n)
      (by simp [liftR, hcopy])]
    rw [M.bind_ok (s' := ⟨{ s.r with pos := s.r.pos + n }, s.rbits + n * 8⟩) (a := ())
      (by simp [addR])]
    refine ⟨bytesBits ((d.drop s.r.pos).take n), rem_advance h0 hn, ⟨hw.width, hn⟩, ?_, _, rfl, rfl, hlen⟩
    rw [bytesBits_length, hlen]
    simp only
    omega
  · intro s'
    rfl

/-! ## lists -/

theorem post_arrLoop {f : Val → UM Val} {P : Val → Prop} {R : List Bool → Val → Prop} :
    ∀ (l : List Val) (s : USt), s.r.WF d → (∀ x ∈ l, P x) →
      (∀ x s, P x → s.r.WF d → Post d nh R s (f x s)) →
      Post d nh (fun bs l' => l'.length = l.length ∧ ∃ bss : List (List Bool), bss.length = l'.length ∧
        bs = bss.flatten ∧ ∀ p ∈ bss.zip l', R p.1 p.2) s (arrLoop f l s)
  | [], s, hw, _, _ => Post.pure hw ⟨rfl, [], rfl, rfl, by simp⟩
  | x :: xs, s, hw, hp, hf => by
    unfold arrLoop
    refine Post.bind (hf x s (hp x (by simp)) hw) ?_
    intro bs v s' hR _ hw' _
    refine Post.map (g := fun vs => v :: vs) ?_
    refine (post_arrLoop xs s' hw' (fun y hy => hp y (by simp [hy])) hf).mono ?_
    intro bs' l' ⟨h1, bss, h2, h3, h4⟩
    refine ⟨by simp [h1], bs :: bss, by simp [h2], by simp [h3], ?_⟩
    intro p hmem
    simp only [List.zip_cons_cons, List.mem_cons] at hmem
    rcases hmem with rfl | hmem
    · exact hR
    · exact h4 p hmem

theorem post_sliceElem {size8 : Nat} {f : UM Val} {R : List Bool → Val → Prop} (h : Post d nh R s (f s)) :
    Post d nh (fun bs v => R bs v ∧ s.rbits + bs.length ≤ size8) s (sliceElem size8 f s) := by
  unfold sliceElem
  refine Post.bind h ?_
  intro bs v s' hR _ hw' hc
  apply Post.get
  split
  · exact Post.fail _
  · exact Post.pure hw' (by rw [List.append_nil]; exact ⟨hR, by omega⟩)

theorem post_countLoop {size8 : Nat} {f : UM Val} {R : List Bool → Val → Prop} :
    ∀ (n : Nat) (s : USt), s.r.WF d → (∀ s, s.r.WF d → Post d nh R s (f s)) →
      Post d nh (fun bs l => l.length = n ∧ ∃ bss : List (List Bool), bss.length = l.length ∧
        bs = bss.flatten ∧ ∀ p ∈ bss.zip l, R p.1 p.2) s (countLoop size8 f n s)
  | 0, s, hw, _ => Post.pure hw ⟨rfl, [], rfl, rfl, by simp⟩
  | n + 1, s, hw, hf => by
    unfold countLoop
    refine Post.bind (post_sliceElem (hf s hw)) ?_
    intro bs v s' ⟨hR, _⟩ _ hw' _
    refine Post.map (g := fun vs => v :: vs) ?_
    refine (post_countLoop n s' hw' hf).mono ?_
    intro bs' l' ⟨h1, bss, h2, h3, h4⟩
    refine ⟨by simp [h1], bs :: bss, by simp [h2], by simp [h3], ?_⟩
    intro p hmem
    simp only [List.zip_cons_cons, List.mem_cons] at hmem
    rcases hmem with rfl | hmem
    · exact hR
    · exact h4 p hmem

theorem post_greedyLoop {size8 : Nat} {f : UM Val} {R : List Bool → Val → Prop}
    (hprog : nh → ∀ bs v, R bs v → 1 ≤ bs.length) :
    ∀ (fuel : Nat) (s : USt), s.r.WF d → (nh → size8 < fuel + s.rbits ∧ (fuel = 0 → s.rbits ≤ size8)) →
      (∀ s, s.r.WF d → Post d nh R s (f s)) →
      Post d nh (fun bs l => size8 ≤ s.rbits + bs.length ∧ ∃ bss : List (List Bool), bss.length = l.length ∧
        bs = bss.flatten ∧ ∀ p ∈ bss.zip l, R p.1 p.2) s (greedyLoop size8 f fuel s)
  | 0, s, hw, hfu, _ => by
    intro hn
    have := hfu hn
    omega
  | fuel + 1, s, hw, hfu, hf => by
    unfold greedyLoop
    apply Post.get
    split
    · next h => exact Post.pure hw ⟨by simpa using h, [], rfl, rfl, by simp⟩
    · next h =>
      refine Post.bind (post_sliceElem (hf s hw)) ?_
      intro bs v s' ⟨hR, hle⟩ _ hw' hc
      refine Post.map (g := fun vs => v :: vs) ?_
      refine (post_greedyLoop hprog fuel s' hw' ?_ hf).mono ?_
      · intro hn
        have := hprog hn _ _ hR
        have := hfu hn
        omega
      · intro bs' l' ⟨h1, bss, h2, h3, h4⟩
        refine ⟨by rw [List.length_append]; omega, bs :: bss, by simp [h2], by simp [h3], ?_⟩
        intro p hmem
        simp only [List.zip_cons_cons, List.mem_cons] at hmem
        rcases hmem with rfl | hmem
        · exact hR
        · exact h4 p hmem

end

end Mp4
