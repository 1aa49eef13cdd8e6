import Verif.Lemmas.BoxInfo

/-!
# C03, C04: box headers
-/

namespace Mp4.Props

/-- What the ISO/IEC 14496-12 header grammar says about a byte string. -/
inductive Header where
  /-- `size`, header length, type, "extends to the end of the file" -/
  | box (size hdr : Nat) (type : BoxType) (toEOF : Bool)
  /-- the header is cut off -/
  | truncated
  /-- the effective size is zero -/
  | zeroSize
  deriving DecidableEq

/-- Big-endian number of bytes, most significant first. -/
def be : List Byte → Nat
  | [] => 0
  | b :: bs => b.toNat * 256 ^ bs.length + be bs

/-- The `largesize` field of a 64-bit header. -/
def isoLarge (type : BoxType) : Bytes → Header
  | l0 :: l1 :: l2 :: l3 :: l4 :: l5 :: l6 :: l7 :: _ =>
    if be [l0, l1, l2, l3, l4, l5, l6, l7] = 0 then .zeroSize
    else .box (be [l0, l1, l2, l3, l4, l5, l6, l7]) 16 type false
  | _ => .truncated

/-- ISO/IEC 14496-12 §4.2: `size` (32 bits), `type` (32 bits), then `largesize` (64 bits)
if `size = 1`; `size = 0` means that the box extends to the end of the file. -/
def isoHeader : Bytes → Header
  | s0 :: s1 :: s2 :: s3 :: t0 :: t1 :: t2 :: t3 :: rest =>
    let size := be [s0, s1, s2, s3]
    let type : BoxType := ⟨t0, t1, t2, t3⟩
    if size = 0 then .box (8 + rest.length) 8 type true
    else if size = 1 then isoLarge type rest
    else .box size 8 type false
  | _ => .truncated

/-- `isoHeader` on at least eight bytes. -/
private theorem isoHeader_cons (s0 s1 s2 s3 t0 t1 t2 t3 : Byte) (rest : Bytes) :
    isoHeader (s0 :: s1 :: s2 :: s3 :: t0 :: t1 :: t2 :: t3 :: rest) =
    if be [s0, s1, s2, s3] = 0 then .box (8 + rest.length) 8 ⟨t0, t1, t2, t3⟩ true
    else if be [s0, s1, s2, s3] = 1 then isoLarge ⟨t0, t1, t2, t3⟩ rest
    else .box (be [s0, s1, s2, s3]) 8 ⟨t0, t1, t2, t3⟩ false := (rfl)

private theorem isoLarge_cons (t : BoxType) (l0 l1 l2 l3 l4 l5 l6 l7 : Byte) (rest : Bytes) :
    isoLarge t (l0 :: l1 :: l2 :: l3 :: l4 :: l5 :: l6 :: l7 :: rest) =
    if be [l0, l1, l2, l3, l4, l5, l6, l7] = 0 then .zeroSize
    else .box (be [l0, l1, l2, l3, l4, l5, l6, l7]) 16 t false := (rfl)

private theorem isoLarge_short (t : BoxType) (l : Bytes) (h : l.length < 8) :
    isoLarge t l = .truncated := by
  match l with
  | [] => rfl
  | [_] => rfl
  | [_, _] => rfl
  | [_, _, _] => rfl
  | [_, _, _, _] => rfl
  | [_, _, _, _, _] => rfl
  | [_, _, _, _, _, _] => rfl
  | [_, _, _, _, _, _, _] => rfl
  | a :: b :: c :: d :: e :: f :: g :: h' :: t => simp only [List.length_cons] at h; omega

private theorem be_eq (b : Bytes) : beNat b = be b := by
  induction b with
  | nil => rfl
  | cons x b ih => rw [beNat_cons, ih, be]

private theorem split8 (l : Bytes) :
    (∃ a b c d e f g h t, l = a :: b :: c :: d :: e :: f :: g :: h :: t) ∨ l.length < 8 := by
  match l with
  | [] => right; simp
  | [_] => right; simp
  | [_, _] => right; simp
  | [_, _, _] => right; simp
  | [_, _, _, _] => right; simp
  | [_, _, _, _, _] => right; simp
  | [_, _, _, _, _, _] => right; simp
  | [_, _, _, _, _, _, _] => right; simp
  | a :: b :: c :: d :: e :: f :: g :: h :: t => exact .inl ⟨a, b, c, d, e, f, g, h, t, rfl⟩

private theorem isoHeader_short (l : Bytes) (h : l.length < 8) : isoHeader l = .truncated := by
  match l with
  | [] => rfl
  | [_] => rfl
  | [_, _] => rfl
  | [_, _, _] => rfl
  | [_, _, _, _] => rfl
  | [_, _, _, _, _] => rfl
  | [_, _, _, _, _, _] => rfl
  | [_, _, _, _, _, _, _] => rfl
  | a :: b :: c :: d :: e :: f :: g :: h' :: t => simp only [List.length_cons] at h; omega

/-- **C03** — `ReadBoxInfo`, at any position of any byte string (shorter than 2^63 bytes,
as every Go slice is), returns exactly what the header grammar assigns to the bytes
there: the box info with the stream at the payload, or an error exactly when the
header is truncated or the effective size is zero. -/
theorem readBoxInfo_iso (d : Bytes) (pos : Nat) (hd : d.length < 2 ^ 63) :
    match isoHeader (d.drop pos) with
    | .box size hdr type toEOF =>
      readBoxInfo d pos =
        (.ok { offset := pos, size := size, headerSize := hdr, type := type,
               extendToEOF := toEOF, ctx := {} }, pos + hdr)
    | .truncated => ∃ p, readBoxInfo d pos = (.err .eof, p)
    | .zeroSize => ∃ p, readBoxInfo d pos = (.err .invalidSize, p) := by
  rcases split8 (d.drop pos) with ⟨s0, s1, s2, s3, t0, t1, t2, t3, rest, he⟩ | hs
  · have hlen := congrArg List.length he
    simp only [List.length_drop, List.length_cons] at hlen
    have h8 : copyNP d smallHeaderSize pos =
        (.ok [s0, s1, s2, s3, t0, t1, t2, t3], pos + 8) := by
      rw [copyNP_ok (by decide) (by decide) (by simp [smallHeaderSize]; omega), he]; rfl
    have hsz : beNat (List.take 4 [s0, s1, s2, s3, t0, t1, t2, t3]) = be [s0, s1, s2, s3] :=
      be_eq _
    unfold readBoxInfo
    rw [M.bind_ok (M.get_run pos), M.bind_ok h8]
    simp only [hsz]
    rw [he]
    rw [isoHeader_cons]
    generalize be [s0, s1, s2, s3] = n
    by_cases h0 : n = 0
    · simp only [h0, if_true]
      have hsub : sub64 d.length pos = 8 + rest.length := by
        unfold sub64; simp only [U64]; omega
      have hpay : (add64 pos smallHeaderSize) = pos + 8 := by
        unfold add64; simp only [U64, smallHeaderSize]; omega
      have e1 : seekEndP d (pos + 8) = (.ok d.length, d.length) := rfl
      have e2 : seekStartP (pos + 8) d.length = (.ok (pos + 8), pos + 8) := by
        unfold seekStartP
        have : (pos + 8) % U64 = pos + 8 := by simp only [U64]; omega
        rw [this, if_neg (by omega)]
      simp only [M.bind_run, e1, BoxInfo.seekToPayload, hpay, e2, hsub, M.pure_run]
      rw [if_neg (by omega)]
      simp [smallHeaderSize]
    · simp only [h0, if_false]
      by_cases h1 : n = 1
      · simp only [h1, if_true]
        have hdrop : d.drop (pos + 8) = rest := by
          rw [← List.drop_drop, he]; rfl
        rcases split8 rest with ⟨l0, l1, l2, l3, l4, l5, l6, l7, r2, hr⟩ | hr
        · subst hr
          simp only [List.length_cons] at hlen
          have e1 : copyNP d (largeHeaderSize - smallHeaderSize) (pos + 8) =
              (.ok [l0, l1, l2, l3, l4, l5, l6, l7], pos + 16) := by
            rw [copyNP_ok (by decide) (by decide)
              (by simp [smallHeaderSize, largeHeaderSize]; omega), hdrop]
            rfl
          rw [isoLarge_cons]
          have hm := be_eq [l0, l1, l2, l3, l4, l5, l6, l7]
          generalize be [l0, l1, l2, l3, l4, l5, l6, l7] = m at *
          simp only [M.bind_run, e1, M.pure_run, hm]
          by_cases hz : m = 0
          · simp only [hz, if_true, M.fail_run]
            exact ⟨_, rfl⟩
          · simp only [hz, if_false, M.pure_run]
            simp [smallHeaderSize, largeHeaderSize]
        · obtain ⟨p, e1⟩ : ∃ p, copyNP d (largeHeaderSize - smallHeaderSize) (pos + 8) =
              (.err .eof, p) := copyNP_eof (by decide) (by decide)
              (by simp [smallHeaderSize, largeHeaderSize]; omega)
          rw [isoLarge_short _ _ hr]
          simp only [M.bind_run, e1]
          exact ⟨_, rfl⟩
      · simp only [h1, if_false, M.bind_run, M.pure_run, h0]
        rfl
  · rw [isoHeader_short _ hs]
    simp only [List.length_drop] at hs
    obtain ⟨p, e1⟩ : ∃ p, copyNP d smallHeaderSize pos = (.err .eof, p) :=
      copyNP_eof (by decide) (by decide) (by simp [smallHeaderSize]; omega)
    refine ⟨p, ?_⟩
    unfold readBoxInfo
    rw [M.bind_ok (M.get_run pos), M.bind_err e1]

/-- Consequence of C03: no panic and no hang on any input. -/
theorem readBoxInfo_returns (d : Bytes) (pos : Nat) (hd : d.length < 2 ^ 63) :
    (∃ bi p, readBoxInfo d pos = (.ok bi, p)) ∨ (∃ e p, readBoxInfo d pos = (.err e, p)) := by
  have h := readBoxInfo_iso d pos hd
  split at h
  · exact .inl ⟨_, _, h⟩
  · exact .inr ⟨_, h⟩
  · exact .inr ⟨_, h⟩

/-- the four kinds of headers all occur -/
example :
    isoHeader [0, 0, 0, 9, 0x66, 0x72, 0x65, 0x65, 1] = .box 9 8 ⟨0x66, 0x72, 0x65, 0x65⟩ false ∧
    isoHeader [0, 0, 0, 0, 0x6d, 0x64, 0x61, 0x74, 1, 2] =
      .box 10 8 ⟨0x6d, 0x64, 0x61, 0x74⟩ true ∧
    isoHeader [0, 0, 0, 1, 0x6d, 0x64, 0x61, 0x74, 0, 0, 0, 0, 0, 0, 0, 20] =
      .box 20 16 ⟨0x6d, 0x64, 0x61, 0x74⟩ false ∧
    isoHeader [0, 0, 0, 1, 0x6d, 0x64, 0x61, 0x74, 0, 0, 0, 0, 0, 0, 0, 0] = .zeroSize ∧
    isoHeader [0, 0, 0, 9, 0x66] = .truncated := by decide

/-! ## C04 -/

/-- A `BoxInfo` is self-consistent for a file of `len` bytes in which the header is at
`pos`: an ordinary header, a 64-bit header, or "extends to the end". -/
def SelfConsistent (bi : BoxInfo) (len pos : Nat) : Prop :=
  bi.headerSize ≤ bi.size ∧ bi.size < 2 ^ 64 ∧
  ((bi.extendToEOF = false ∧ bi.headerSize = 8 ∧ bi.size < 2 ^ 32) ∨
   (bi.extendToEOF = false ∧ bi.headerSize = 16) ∨
   (bi.extendToEOF = true ∧ bi.headerSize = 8 ∧ pos + bi.size = len))

theorem iso_small (n : Nat) (t : BoxType) (rest : Bytes) (h0 : n ≠ 0) (h1 : n ≠ 1)
    (hn : n < 2 ^ 32) : isoHeader (beBytes 4 n ++ t.bytes ++ rest) = .box n 8 t false := by
  have e : be (beBytes 4 n) = n := by
    rw [← be_eq, beNat_beBytes]; exact Nat.mod_eq_of_lt hn
  simp only [beBytes] at e
  simp only [beBytes, BoxType.bytes, List.cons_append, List.nil_append, isoHeader_cons, e, h0, h1,
    if_false]

theorem iso_eof (t : BoxType) (rest : Bytes) :
    isoHeader (beBytes 4 0 ++ t.bytes ++ rest) = .box (8 + rest.length) 8 t true := by
  have e : be (beBytes 4 0) = 0 := by decide
  simp only [beBytes] at e
  simp only [beBytes, BoxType.bytes, List.cons_append, List.nil_append, isoHeader_cons, e, if_true]

theorem iso_large (n : Nat) (t : BoxType) (rest : Bytes) (h0 : n ≠ 0)
    (hn : n < 2 ^ 64) :
    isoHeader (beBytes 4 1 ++ t.bytes ++ beBytes 8 n ++ rest) = .box n 16 t false := by
  have e : be (beBytes 4 1) = 1 := by decide
  have e8 : be (beBytes 8 n) = n := by
    rw [← be_eq, beNat_beBytes]; exact Nat.mod_eq_of_lt hn
  simp only [beBytes] at e e8
  simp only [beBytes, BoxType.bytes, List.cons_append, List.nil_append, isoHeader_cons, isoLarge_cons, e, if_true, e8,
    h0, if_false, Nat.one_ne_zero]

/-- **C04** — For every `BoxInfo` and every file state, `WriteBoxInfo` on a destination
that does not fail writes some `n` bytes at the current position, and returns a
`BoxInfo` that reports this position as its offset and `n` as its header size, and the same type.  If
the given `BoxInfo` is self-consistent then the returned size is unchanged and
`ReadBoxInfo` at that position yields the same type, size, header size and
extend-to-EOF flag. -/
theorem boxInfo_round_trip (bi : BoxInfo) (f : FSt) :
    ∃ bi' f', writeBoxInfo noFaults bi f = (.ok bi', f') ∧
      bi'.offset = f.pos ∧ bi'.type = bi.type ∧ bi'.extendToEOF = bi.extendToEOF ∧
      f'.pos = f.pos + bi'.headerSize ∧
      f'.data = writeAt f.data f.pos ((f'.data.drop f.pos).take bi'.headerSize) ∧
      (SelfConsistent bi f'.data.length f.pos → f'.data.length < 2 ^ 63 →
        bi'.size = bi.size ∧ bi'.headerSize = bi.headerSize ∧
        readBoxInfo f'.data f.pos =
          (.ok { bi with offset := f.pos, ctx := {} }, f.pos + bi.headerSize)) := by
  let f' : FSt := ⟨writeAt f.data f.pos (boxInfoBytes bi), f.pos + (boxInfoBytes bi).length,
    f.calls + 1 + 1⟩
  refine ⟨boxInfoWritten bi f.pos, f', rfl, rfl, rfl, rfl, rfl, ?_, ?_⟩
  · show f'.data = _
    simp only [f', boxInfoWritten]
    rw [writeAt_drop, List.take_left]
  · rintro ⟨hle, hlt, hc⟩ hd
    have hdrop : f'.data.drop f.pos =
        boxInfoBytes bi ++ f.data.drop (f.pos + (boxInfoBytes bi).length) := writeAt_drop _ _ _
    have key := readBoxInfo_iso f'.data f.pos hd
    rw [hdrop] at key
    have hne : boxInfoBytes bi ≠ [] := by
      intro e
      have h1 := boxInfoBytes_length bi
      rw [e] at h1
      split at h1
      · simp at h1
      · split at h1 <;> simp at h1
    have hwl := writeAt_length hne f.data f.pos
    have hsize : ∀ h : (boxInfoBytes bi).length = bi.headerSize,
        (boxInfoWritten bi f.pos).size = bi.size := by
      intro h
      simp only [boxInfoWritten, h, add64, sub64, U64]
      omega
    rcases hc with ⟨he, hh, hs⟩ | ⟨he, hh⟩ | ⟨he, hh, hs⟩
    · have hb : boxInfoBytes bi = beBytes 4 bi.size ++ bi.type.bytes := by
        unfold boxInfoBytes
        rw [he, hh]
        simp only [Bool.false_eq_true, if_false]
        rw [if_pos ⟨by omega, by decide⟩]
      have hbl : (boxInfoBytes bi).length = bi.headerSize := by rw [hb, hh]; simp [BoxType.bytes]
      have hi := iso_small bi.size bi.type (f.data.drop (f.pos + (boxInfoBytes bi).length))
        (by omega) (by omega) hs
      rw [← hb] at hi
      rw [hi] at key
      refine ⟨hsize hbl, hbl, ?_⟩
      rw [key, hh]
      rw [← he]
    · have hb : boxInfoBytes bi = beBytes 4 1 ++ bi.type.bytes ++ beBytes 8 bi.size := by
        unfold boxInfoBytes
        rw [he, hh]
        simp only [Bool.false_eq_true, if_false]
        rw [if_neg (by simp [largeHeaderSize])]
      have hbl : (boxInfoBytes bi).length = bi.headerSize := by rw [hb, hh]; simp [BoxType.bytes]
      have hi := iso_large bi.size bi.type (f.data.drop (f.pos + (boxInfoBytes bi).length))
        (by omega) hlt
      rw [← hb] at hi
      rw [hi] at key
      refine ⟨hsize hbl, hbl, ?_⟩
      rw [key, hh]
      rw [← he]
    · have hb : boxInfoBytes bi = beBytes 4 0 ++ bi.type.bytes := by
        unfold boxInfoBytes
        rw [he]
        simp only [if_true]
      have hbl : (boxInfoBytes bi).length = bi.headerSize := by rw [hb, hh]; simp [BoxType.bytes]
      have hi := iso_eof bi.type (f.data.drop (f.pos + (boxInfoBytes bi).length))
      rw [← hb] at hi
      rw [hi] at key
      refine ⟨hsize hbl, hbl, ?_⟩
      rw [key, hh]
      have hfl : f'.data.length = max f.data.length (f.pos + 8) := by
        show (writeAt f.data f.pos (boxInfoBytes bi)).length = _
        rw [hwl, hbl, hh]
      have hsz : 8 + (f.data.drop (f.pos + (boxInfoBytes bi).length)).length = bi.size := by
        rw [hbl, hh]
        simp only [List.length_drop]
        omega
      rw [hsz]
      rw [← he]

/-- a self-consistent 64-bit header for a small `mdat` box -/
example : SelfConsistent { size := 100, headerSize := 16, type := ⟨0x6d, 0x64, 0x61, 0x74⟩ } 0 0 := by
  refine ⟨by decide, by decide, ?_⟩
  right; left; decide

/-- Without self-consistency the header that is written need not agree with the `BoxInfo`
returned: for a 32-bit header with a size that needs 64 bits, `WriteBoxInfo` enlarges
the returned size by the eight extra header bytes but writes the old size. -/
theorem boxInfo_promotion_mismatch :
    ∃ bi : BoxInfo, bi.headerSize = 8 ∧ 8 ≤ bi.size ∧ bi.size < 2 ^ 64 ∧
      ∃ bi' f', writeBoxInfo noFaults bi ⟨[], 0, 0⟩ = (.ok bi', f') ∧
        ∃ bi'' p, readBoxInfo f'.data 0 = (.ok bi'', p) ∧ bi''.size ≠ bi'.size := by
  refine ⟨{ size := 2 ^ 32, headerSize := 8, type := ⟨0x6d, 0x64, 0x61, 0x74⟩ }, rfl, by decide,
    by decide, _, _, rfl, ?_⟩
  refine ⟨{ size := 2 ^ 32, headerSize := 16, type := ⟨0x6d, 0x64, 0x61, 0x74⟩ }, 16, ?_, ?_⟩
  · decide
  · decide

end Mp4.Props
