import Verif.Lemmas.Golden
import Verif.Lemmas.Encode
import Verif.Props.RoundTrip

/-!
# C37: descriptors of `esds`
-/

namespace Mp4.Props

open Mp4 Mp4.Spec

/-- A descriptor of an `esds` box, ISO/IEC 14496-1 §7.2.6.  The size of the first two is any number, as in the Go type. -/
inductive Descr where
  /-- ES descriptor, with its optional parts -/
  | es (size id : Nat) (priority : Int) (dependsOn : Option Nat) (url : Option Bytes) (ocr : Option Nat)
  /-- decoder configuration -/
  | config (size oti : Nat) (streamType : Int) (up reserved : Bool) (buffer max avg : Nat)
  /-- a descriptor of any other kind, which is not looked into -/
  | other (tag : Int) (data : Bytes)

namespace Descr

/-- As a value of the Go type `Descriptor`. -/
def toGo : Descr → Val
  | .es size id priority dependsOn url ocr => .struct
      [("Tag", .int 3), ("Size", .uint size),
       ("ESDescriptor", .ptr (some (.struct
         [("ESID", .uint id), ("StreamDependenceFlag", .bool dependsOn.isSome), ("UrlFlag", .bool url.isSome),
          ("OcrStreamFlag", .bool ocr.isSome), ("StreamPriority", .int priority), ("DependsOnESID", .uint (dependsOn.getD 0)),
          ("URLLength", .uint (url.getD []).length), ("URLString", .slice (goBytes (url.getD []))), ("OCRESID", .uint (ocr.getD 0))]))),
       ("DecoderConfigDescriptor", .ptr none), ("Data", .slice [])]
  | .config size oti streamType up reserved buffer max avg => .struct
      [("Tag", .int 4), ("Size", .uint size), ("ESDescriptor", .ptr none),
       ("DecoderConfigDescriptor", .ptr (some (.struct
         [("ObjectTypeIndication", .uint oti), ("StreamType", .int streamType), ("UpStream", .bool up), ("Reserved", .bool reserved),
          ("BufferSizeDB", .uint buffer), ("MaxBitrate", .uint max), ("AvgBitrate", .uint avg)]))),
       ("Data", .slice [])]
  | .other tag data => .struct
      [("Tag", .int tag), ("Size", .uint data.length), ("ESDescriptor", .ptr none), ("DecoderConfigDescriptor", .ptr none),
       ("Data", .slice (goBytes data))]

/-- a size: four bytes with seven bits each, the first three marked as having a successor -/
def sizeBits (n : Nat) : List Bool :=
  ints [(1, 1), (7, n / 2 ^ 21), (1, 1), (7, n / 2 ^ 14), (1, 1), (7, n / 2 ^ 7), (1, 0), (7, n)]

/-- The bits of the descriptor. -/
def bits : Descr → List Bool
  | .es size id priority dependsOn url ocr =>
      ints [(8, 3)] ++ sizeBits size ++ ints [(16, id)] ++ [dependsOn.isSome, url.isSome, ocr.isSome] ++ sint 5 priority ++
      (match dependsOn with | some x => ints [(16, x)] | none => []) ++
      (match url with | some x => ints [(8, x.length)] ++ bytesBits x | none => []) ++
      (match ocr with | some x => ints [(16, x)] | none => [])
  | .config size oti streamType up reserved buffer max avg =>
      ints [(8, 4)] ++ sizeBits size ++ ints [(8, oti)] ++ sint 6 streamType ++ [up, reserved] ++
      ints [(24, buffer), (32, max), (32, avg)]
  | .other tag data => sint 8 tag ++ sizeBits data.length ++ bytesBits data

/-- The numbers fit their fields. -/
def Valid : Descr → Prop
  | .es size id priority dependsOn url ocr =>
      size < 2 ^ 28 ∧ id < 2 ^ 16 ∧ IsInt 5 priority ∧ dependsOn.getD 0 < 2 ^ 16 ∧ (url.getD []).length < 2 ^ 8 ∧ ocr.getD 0 < 2 ^ 16
  | .config size oti streamType _ _ buffer max avg =>
      size < 2 ^ 28 ∧ oti < 2 ^ 8 ∧ IsInt 6 streamType ∧ buffer < 2 ^ 24 ∧ max < 2 ^ 32 ∧ avg < 2 ^ 32
  | .other tag data => IsInt 8 tag ∧ tag ≠ 3 ∧ tag ≠ 4 ∧ data.length < 2 ^ 28

theorem uvarint_eq (n : Nat) : uvarint n = sizeBits n := by
  simp [uvarint, sizeBits, ints, natBits, Nat.shiftRight_eq_div_pow]

theorem sizeBits_length (n : Nat) : (sizeBits n).length = 32 := by simp [sizeBits, ints]

theorem layout_url (e : Env) (fi : Field) (hs : fi.size = 8) (hv : fi.varint = false) (d : Bytes) (hl : fi.length = d.length) :
    layoutV e (.slice (.uint 8)) fi (.slice (goBytes d)) = bytesBits d := layout_goBytes e fi hs hv d (.inr hl)

theorem counted_goBytes {fi : Field} {d : Bytes} {x : Val} (hx : x ∈ counted fi (goBytes d)) : ∃ n, x = .uint n := by
  have hx : x ∈ goBytes d := by
    unfold counted at hx
    split at hx
    · exact hx
    · exact List.mem_of_mem_take hx
  obtain ⟨b, _, rfl⟩ := List.mem_map.1 hx
  exact ⟨_, rfl⟩

theorem goBytes_nil : goBytes [] = [] := rfl

/-- the size as far as it is written -/
def wrap : Descr → Descr
  | .es size id priority dependsOn url ocr => .es (size % 2 ^ 28) id priority dependsOn url ocr
  | .config size oti streamType up reserved buffer max avg => .config (size % 2 ^ 28) oti streamType up reserved buffer max avg
  | .other tag data => .other tag data

theorem sizeBits_wrap (n : Nat) : sizeBits (n % 2 ^ 28) = sizeBits n := by
  simp only [sizeBits, ints, List.append_nil]
  have h : ∀ k ≤ 21, natBits 7 (n % 2 ^ 28 / 2 ^ k) = natBits 7 (n / 2 ^ k) := by
    intro k hk
    rw [← natBits_mod 7 (n % 2 ^ 28 / 2 ^ k), ← natBits_mod 7 (n / 2 ^ k)]
    congr 1
    have : k + 7 ≤ 28 := by omega
    rw [show 28 = k + 7 + (21 - k) by omega, Nat.pow_add, Nat.pow_add]
    rw [Nat.mul_assoc, Nat.mod_mul_right_div_self, Nat.mod_mul_right_mod]
  rw [h 21 (by omega), h 14 (by omega), h 7 (by omega)]
  have := h 0 (by omega)
  simp only [Nat.pow_zero, Nat.div_one] at this
  rw [this]

theorem bits_wrap (x : Descr) : x.wrap.bits = x.bits := by
  cases x <;> simp only [wrap, bits, sizeBits_wrap]

theorem layout_toGo (e : Env) (fi : Field) (hs : fi.size = 0) (x : Descr) (ht : ∀ tag data, x = .other tag data → tag ≠ 3 ∧ tag ≠ 4) :
    layoutV e Cat.tyDescriptor fi x.toGo = x.bits := by
  cases x with
  | es size id priority dependsOn url ocr =>
    cases dependsOn
    all_goals cases url
    all_goals cases ocr
    all_goals
      simp only [toGo, Cat.tyDescriptor, Cat.fsDescriptor]
      layout_tac [bits, ints, sint, cfoDescriptor, cfoESDescriptor, SV.int, SV.bool, hs, Cat.tyESDescriptor, Cat.fsESDescriptor, uvarint_eq, layout_url]
  | config size oti streamType up reserved buffer max avg =>
    simp only [toGo, Cat.tyDescriptor, Cat.fsDescriptor]
    layout_tac [bits, ints, sint, cfoDescriptor, SV.int, SV.bool, hs, Cat.tyDecoderConfigDescriptor, Cat.fsDecoderConfigDescriptor, uvarint_eq]
  | other tag data =>
    obtain ⟨h1, h2⟩ := ht _ _ rfl
    simp only [toGo, Cat.tyDescriptor, Cat.fsDescriptor]
    layout_tac [bits, ints, sint, cfoDescriptor, SV.int, SV.bool, hs, h1, h2, uvarint_eq, layout_url]

theorem bits_length (x : Descr) : x.bits.length % 8 = 0 ∧ 40 ≤ x.bits.length := by
  cases x with
  | es size id priority dependsOn url ocr =>
    cases dependsOn
    all_goals cases url
    all_goals cases ocr
    all_goals
      simp [bits, ints, sint, sizeBits_length]
      try omega
  | config size oti streamType up reserved buffer max avg =>
    simp [bits, ints, sint, sizeBits_length]
  | other tag data =>
    simp [bits, ints, sint, sizeBits_length]
    omega

theorem writable_toGo (e : Env) (fi : Field) (x : Descr) (h : x.wrap.Valid) :
    writableV e Cat.tyDescriptor fi x.toGo = true := by
  cases x with
  | es size id priority dependsOn url ocr =>
    obtain ⟨h1, h2, h3, h4, h5, h6⟩ := h
    simp [IsInt] at h3
    cases dependsOn
    all_goals cases url
    all_goals cases ocr
    all_goals
      simp only [toGo, Cat.tyDescriptor, Cat.fsDescriptor]
      simp [writableV, writableFields, Fields.ofList, cfoDescriptor, cfoESDescriptor, SV.int, SV.bool, SV.get, SV.uint, present, instField, anyVersion, Cat.tyESDescriptor, Cat.fsESDescriptor, h3]
      try (intro x hx; obtain ⟨n, rfl⟩ := counted_goBytes hx; rfl)
  | config size oti streamType up reserved buffer max avg =>
    obtain ⟨h1, h2, h3, h4, h5, h6⟩ := h
    simp [IsInt] at h3
    simp only [toGo, Cat.tyDescriptor, Cat.fsDescriptor]
    simp [writableV, writableFields, Fields.ofList, cfoDescriptor, Cfo.base, SV.int, SV.bool, SV.get, SV.uint, present, instField, anyVersion, Cat.tyDecoderConfigDescriptor, Cat.fsDecoderConfigDescriptor, h3]
  | other tag data =>
    obtain ⟨h1, h2, h3, h4⟩ := h
    simp [IsInt] at h1
    simp only [toGo, Cat.tyDescriptor, Cat.fsDescriptor]
    simp [writableV, writableFields, Fields.ofList, cfoDescriptor, SV.int, SV.bool, SV.get, SV.uint, present, instField, anyVersion, h1, h2, h3]
    intro x hx; obtain ⟨n, rfl⟩ := counted_goBytes hx; rfl

theorem fits (e : Env) (fi : Field) (hs : fi.size = 0) (x : Descr) (h : x.Valid) (j : Nat) (hj : x.bits.length ≤ j) (h8 : j % 8 = 0) :
    fitsV e Cat.tyDescriptor fi x.toGo j = true := by
  cases x with
  | es size id priority dependsOn url ocr =>
    obtain ⟨h1, h2, h3, h4, h5, h6⟩ := h
    cases dependsOn
    all_goals cases url
    all_goals cases ocr
    all_goals
      simp [bits, ints, sint, sizeBits_length] at hj
      simp [IsInt] at h1 h2 h3 h4 h5 h6
      simp only [toGo, Cat.tyDescriptor, Cat.fsDescriptor]
      fits_tac [cfoDescriptor, cfoESDescriptor, SV.int, SV.bool, hs, Cat.tyESDescriptor, Cat.fsESDescriptor, uvarint_eq, sizeBits_length, layout_url, goBytes_nil, h1, h2, h3, h4, h5, h6]
      try fits_close
  | config size oti streamType up reserved buffer max avg =>
    obtain ⟨h1, h2, h3, h4, h5, h6⟩ := h
    simp [bits, ints, sint, sizeBits_length] at hj
    simp [IsInt] at h1 h2 h3 h4 h5 h6
    simp only [toGo, Cat.tyDescriptor, Cat.fsDescriptor]
    fits_tac [cfoDescriptor, SV.int, SV.bool, hs, Cat.tyDecoderConfigDescriptor, Cat.fsDecoderConfigDescriptor, uvarint_eq, sizeBits_length, layout_url, goBytes_nil, h1, h2, h3, h4, h5, h6]
    try fits_close
  | other tag data =>
    obtain ⟨h1, h2, h3, h4⟩ := h
    simp [bits, ints, sint, sizeBits_length] at hj
    simp [IsInt] at h1 h4
    simp only [toGo, Cat.tyDescriptor, Cat.fsDescriptor]
    fits_tac [cfoDescriptor, SV.int, SV.bool, hs, uvarint_eq, sizeBits_length, layout_url, goBytes_nil, h1, h2, h3, h4]
    try fits_close

theorem fitsList_toGo (e : Env) (fi : Field) (hs : fi.size = 0) : ∀ (l : List Descr), (∀ x ∈ l, x.Valid) → ∀ left, left % 8 = 0 →
    (l.flatMap bits).length ≤ left →
    fitsList (fun x k => fitsV e Cat.tyDescriptor fi x k) (fun x => layoutV e Cat.tyDescriptor fi x) (l.map toGo) left = true
  | [], _, _, _, _ => rfl
  | x :: l, h, left, h8, hl => by
    have hx := h x List.mem_cons_self
    have hb := layout_toGo e fi hs x (by rintro tag data rfl; exact ⟨hx.2.1, hx.2.2.1⟩)
    have hlen := bits_length x
    rw [List.flatMap_cons, List.length_append] at hl
    rw [List.map_cons, fitsList]
    simp only [hb, Bool.and_eq_true, decide_eq_true_eq]
    exact ⟨⟨fits e fi hs x hx left (by omega) h8, by omega⟩,
      fitsList_toGo e fi hs l (fun y hy => h y (List.mem_cons_of_mem _ hy)) _ (by omega) (by omega)⟩

theorem flatMap_length_mod (l : List Descr) : (l.flatMap bits).length % 8 = 0 := by
  induction l with
  | nil => rfl
  | cons x l ih =>
    have := bits_length x
    rw [List.flatMap_cons, List.length_append]; omega

theorem fits_slice (e : Env) (fi : Field) (hs : fi.size = 0) (hl : fi.length = lengthUnlimited) (l : List Descr) (h : ∀ x ∈ l, x.Valid) :
    fitsV e (.slice Cat.tyDescriptor) fi (.slice (l.map toGo)) (l.flatMap bits).length = true := by
  have hb : ∀ x ∈ l, layoutV e Cat.tyDescriptor fi x.toGo = x.bits := by
    intro x hx
    apply layout_toGo e fi hs
    rintro tag data rfl
    exact ⟨(h _ hx).2.1, (h _ hx).2.2.1⟩
  rw [fitsV]
  simp only [Bool.and_eq_true, hl, if_true]
  refine ⟨fitsList_toGo e fi hs l h _ (flatMap_length_mod l) (Nat.le_refl _), ⟨?_, ?_⟩, by rw [hs]; rfl⟩
  · rw [beq_iff_eq, List.flatMap_map]
    rw [List.flatMap_def, List.flatMap_def, List.map_congr_left hb]
  · rw [List.all_eq_true]
    intro x hm
    obtain ⟨y, hy, rfl⟩ := List.mem_map.1 hm
    have := bits_length y
    rw [hb y hy]
    cases hq : y.bits with
    | nil => rw [hq] at this; simp at this
    | cons => rfl

end Descr

/-- an `esds` box with these descriptors, as a value of the Go type -/
def esds (f0 f1 f2 : Nat) (l : List Descr) : SV := [fullBox 0 f0 f1 f2, ("Descriptors", .slice (l.map Descr.toGo))]

theorem esds_layout (f0 f1 f2 : Nat) (l : List Descr) (ht : ∀ x ∈ l, ∀ tag data, x = .other tag data → tag ≠ 3 ∧ tag ≠ 4) (ctx : Ctx) :
    layout Cat.bdEsds ctx (esds f0 f1 f2 l) = verFlags 0 f0 f1 f2 ++ l.flatMap Descr.bits := by
  unfold esds
  layout_tac [SV.flags, SV.version, SV.full, verFlags, ints, Cat.bdEsds, Cat.fsEsds, List.flatMap_map]
  rw [List.flatMap_def, List.flatMap_def]
  congr 1
  exact List.map_congr_left fun x hx => Descr.layout_toGo _ _ rfl x (ht x hx)

/-- **C37**, partial — `Marshal` writes the size of every descriptor in four bytes with seven bits each, and `Unmarshal` gives it back.
(Missing: sizes of 2^28 and more are not rejected, see `esds_size_wraps`.) -/
theorem esds_partial (f0 f1 f2 : Nat) (l : List Descr) (hf : f0 < 256 ∧ f1 < 256 ∧ f2 < 256) (h : ∀ x ∈ l, x.Valid)
    (hn : (l.flatMap Descr.bits).length < 2 ^ 47) (ctx : Ctx) :
    Encodes Cat.bdEsds ctx (esds f0 f1 f2 l) (verFlags 0 f0 f1 f2 ++ l.flatMap Descr.bits) := by
  have ht : ∀ x ∈ l, ∀ tag data, x = Descr.other tag data → tag ≠ 3 ∧ tag ≠ 4 := by
    rintro x hx tag data rfl
    exact ⟨(h _ hx).2.1, (h _ hx).2.2.1⟩
  have h8 := Descr.flatMap_length_mod l
  refine encodes_intro' (by simp [Cat.allDefs]) (esds_layout f0 f1 f2 l ht ctx) rfl ?_ ?_ ?_ rfl rfl
  · rw [List.length_append]; simp only [verFlags, ints, List.length_append, natBits_length, List.length_nil]; omega
  · rw [List.length_append]; simp only [verFlags, ints, List.length_append, natBits_length, List.length_nil]; omega
  · rw [List.length_append]
    have hlist := fun (e : Env) (fi : Field) (hs : fi.size = 0) (hl : fi.length = lengthUnlimited) => Descr.fits_slice e fi hs hl l h
    have hsum : ∀ (e : Env) (fi : Field), fi.size = 0 →
        (l.map fun x => (layoutV e Cat.tyDescriptor fi x.toGo).length).sum = (l.flatMap Descr.bits).length := by
      intro e fi hs
      rw [List.length_flatMap]
      congr 1
      exact List.map_congr_left fun x hx => by rw [Descr.layout_toGo _ _ hs x (ht x hx)]
    generalize hk : (l.flatMap Descr.bits).length = k at *
    unfold esds
    fits_tac [SV.flags, SV.version, SV.full, verFlags, ints, Cat.bdEsds, Cat.fsEsds, hf]
    refine ⟨by omega, hlist _ _ rfl rfl, ?_⟩
    rw [hsum _ _ rfl]
    exact Nat.le_refl _

/-- `Marshal` does not reject sizes of 2^28 and more: it writes their lowest 28 bits, and `Unmarshal` gives those. -/
theorem esds_size_wraps (f0 f1 f2 : Nat) (l : List Descr) (hf : f0 < 256 ∧ f1 < 256 ∧ f2 < 256) (h : ∀ x ∈ l, x.wrap.Valid)
    (hn : (l.flatMap Descr.bits).length < 2 ^ 47) (ctx : Ctx) :
    ∃ p : Bytes, bytesBits p = verFlags 0 f0 f1 f2 ++ l.flatMap Descr.bits ∧
      (∀ out, marshalBox Cat.bdEsds memSink ctx (esds f0 f1 f2 l) out = (.ok p.length, out ++ p)) ∧
      ∀ pre rest : Bytes, (pre ++ p ++ rest).length < 2 ^ 64 →
        unmarshalBox Cat.bdEsds (pre ++ p ++ rest) ctx p.length Cat.bdEsds.fields.zero pre.length =
          (.ok (p.length, esds f0 f1 f2 (l.map Descr.wrap)), pre.length + p.length) := by
  have hb : (l.map Descr.wrap).flatMap Descr.bits = l.flatMap Descr.bits := by
    simp only [List.flatMap_map, Descr.bits_wrap]
  obtain ⟨p, e1, e2, e3⟩ := esds_partial f0 f1 f2 (l.map Descr.wrap) hf (by simpa using h) (by rw [hb]; exact hn) ctx
  rw [hb] at e1
  refine ⟨p, e1, fun out => ?_, e3⟩
  have ht : ∀ x ∈ l, ∀ tag data, x = Descr.other tag data → tag ≠ 3 ∧ tag ≠ 4 := by
    rintro x hx tag data rfl
    exact ⟨(h _ hx).2.1, (h _ hx).2.2.1⟩
  have hl := esds_layout f0 f1 f2 l ht ctx
  rw [← e1] at hl
  have hw : writable Cat.bdEsds ctx (esds f0 f1 f2 l) = true := by
    have hx := fun (e : Env) (fi : Field) => fun x (hx : x ∈ l) => Descr.writable_toGo e fi x (h x hx)
    unfold esds
    simp [writable, writableV, writableFields, Fields.ofList, Cat.bdEsds, Cat.fsEsds, SV.get, fullBox, fullBoxTy, present, instField, anyVersion, env, Cfo.base, counted, lengthUnlimited, silent]
    exact hx _ _
  rw [marshalBox_writes hw (by rw [hl]; simp) (by intro hh; cases hh), hl, bitsBytes_bytesBits]
  simp

/-- The number with these digits in base 128. -/
def base128 (ds : List Nat) : Nat := ds.foldl (fun n x => n * 128 + x % 128) 0

theorem decodes_size {d : Bytes} {size8 : Nat} (last : Nat) : ∀ (ds : List Nat) (left fuel val : Nat), ds.length < fuel →
    Decodes d size8 left (readUvarint d fuel val) (ds.flatMap (fun m => true :: natBits 7 m) ++ (false :: natBits 7 last))
      ((ds ++ [last]).foldl (fun n x => (n * 128 + x % 128) % U64) val)
  | [], left, fuel + 1, val, _ => by
    exact decodes_uvarint_last
  | m :: ds, left, fuel + 1, val, h => by
    rw [List.flatMap_cons, List.append_assoc]
    exact decodes_uvarint_more fun _ => decodes_size last ds _ fuel _ (by simpa using h)

theorem foldl_mod (l : List Nat) (a : Nat) :
    (l.foldl (fun n x => (n * 128 + x % 128) % U64) (a % U64)) = l.foldl (fun n x => n * 128 + x % 128) a % U64 := by
  induction l generalizing a with
  | nil => rfl
  | cons x l ih =>
    rw [List.foldl_cons, List.foldl_cons, ← ih]
    congr 1
    simp only [U64]
    omega

/-- A size in any number of bytes is read: seven bits of each, up to and including the first byte below 128.
(`marshaller.go:645-660`; this is the reading of any field with the tag `varint`.) -/
theorem size_any_length (ds : List Nat) (last : Nat) (fi : Field) (hv : fi.varint = true) (pre rest p : Bytes)
    (hp : bytesBits p = ds.flatMap (fun m => true :: natBits 7 m) ++ (false :: natBits 7 last)) (rbits : Nat) :
    ∃ s, unmarshalUint (pre ++ p ++ rest) 32 fi ⟨RSt.fresh pre.length, rbits⟩ = (.ok (.uint (base128 (ds ++ [last]) % 2 ^ 32)), s) ∧
      s.r.pos = (pre ++ p).length ∧ s.r.width = 0 ∧ s.rbits = rbits + 8 * p.length := by
  have hlen : 8 * p.length = 8 * (ds.length + 1) := by
    have := congrArg List.length hp
    simpa [List.length_flatMap, Nat.mul_add] using this
  have hb : base128 (ds ++ [last]) % 2 ^ 32 = (ds ++ [last]).foldl (fun n x => (n * 128 + x % 128) % U64) 0 % 2 ^ 32 := by
    have := foldl_mod (ds ++ [last]) 0
    rw [Nat.zero_mod] at this
    rw [this, base128]
    simp only [U64]
    omega
  have hd := (decodes_size (d := pre ++ p ++ rest) (size8 := rbits + 8 * p.length) last ds (8 * p.length) ((pre ++ p ++ rest).length + 2) 0
    (by simp; omega)).map (k := fun v => Val.uint (v % 2 ^ 32))
  have hr : (RSt.fresh pre.length).rem (pre ++ p ++ rest) = bytesBits p ++ bytesBits rest := by
    simp [RSt.rem, RSt.fresh, List.append_assoc, natBits, bytesBits_append]
  obtain ⟨s, e1, e2, e3, e4⟩ := hd ⟨RSt.fresh pre.length, rbits⟩ (bytesBits rest) (RSt.fresh_wf (by simp)) rfl (by simp [RSt.fresh])
    (by rw [hr, hp]) (by rw [← hp]; simp)
  refine ⟨s, ?_, ?_⟩
  · unfold unmarshalUint
    rw [if_pos hv, hb]
    exact e1
  · have h1 := congrArg List.length e2
    rw [RSt.rem_length] at h1
    have h2 := e3.width
    have h3 := e3.pos
    rw [← hp] at e4
    simp at h1 h3 e4 ⊢
    omega

/-- A byte string as the digits of a size: `81 00` is 128, as is `80 80 81 00`. -/
example (rest : Bytes) : ∃ s, unmarshalUint ([0x81#8, 0x00#8] ++ rest) 32 { name := "Size", varint := true } ⟨RSt.fresh 0, 0⟩ = (.ok (.uint 128), s) ∧
    s.r.pos = 2 ∧ s.r.width = 0 ∧ s.rbits = 16 :=
  size_any_length [1] 0 { name := "Size", varint := true } rfl [] rest [0x81#8, 0x00#8] (by decide) 0

example (rest : Bytes) : ∃ s, unmarshalUint ([0x80#8, 0x80#8, 0x81#8, 0x00#8] ++ rest) 32 { name := "Size", varint := true } ⟨RSt.fresh 0, 0⟩ = (.ok (.uint 128), s) ∧
    s.r.pos = 4 ∧ s.r.width = 0 ∧ s.rbits = 32 :=
  size_any_length [0, 0, 1] 0 { name := "Size", varint := true } rfl [] rest [0x80#8, 0x80#8, 0x81#8, 0x00#8] (by decide) 0

/-- An `esds` box of an AAC track: ES descriptor, decoder configuration, decoder specific info (tag 5) and SL configuration (tag 6). -/
def aacEsds : List Descr :=
  [.es 34 0 0 none none none, .config 20 0x40 5 false true 0 128000 128000, .other 5 [0x12#8, 0x10#8], .other 6 [2#8]]

example : Encodes Cat.bdEsds ctx0 (esds 0 0 0 aacEsds) (verFlags 0 0 0 0 ++ aacEsds.flatMap Descr.bits) :=
  esds_partial 0 0 0 aacEsds (by decide) (by
    simp [aacEsds, Descr.Valid, IsInt]) (by decide +kernel) ctx0

/-- all three optional parts -/
example : Encodes Cat.bdEsds ctx0 (esds 0 0 0 [.es (2 ^ 28 - 1) 1 3 (some 7) (some [0x61#8]) (some 9)])
    (verFlags 0 0 0 0 ++ [Descr.es (2 ^ 28 - 1) 1 3 (some 7) (some [0x61#8]) (some 9)].flatMap Descr.bits) :=
  esds_partial 0 0 0 _ (by decide) (by simp [Descr.Valid, IsInt]) (by decide) ctx0

/-- An ES descriptor with the size 2^28 + 5 is written without complaint, and read as one with the size 5. -/
example : ∃ p : Bytes,
      (∀ out, marshalBox Cat.bdEsds memSink ctx0 (esds 0 0 0 [.es (2 ^ 28 + 5) 0 0 none none none]) out = (.ok p.length, out ++ p)) ∧
      unmarshalBox Cat.bdEsds p ctx0 p.length Cat.bdEsds.fields.zero 0 = (.ok (p.length, esds 0 0 0 [.es 5 0 0 none none none]), p.length) := by
  obtain ⟨p, e0, e1, e2⟩ := esds_size_wraps 0 0 0 [.es (2 ^ 28 + 5) 0 0 none none none] (by decide) (by simp [Descr.Valid, Descr.wrap, IsInt]) (by decide) ctx0
  refine ⟨p, e1, ?_⟩
  have hl : p.length < 2 ^ 64 := by
    have := congrArg List.length e0
    simp [Descr.bits, verFlags, ints, sint, Descr.sizeBits_length] at this
    omega
  have := e2 [] [] (by simpa using hl)
  simpa [Descr.wrap] using this

end Mp4.Props
