import Verif.Lemmas.SourceRead

/-!
# C68: it does not matter how a source delivers the bytes

`Src.…` are the functions of the library on an arbitrary `io.ReadSeeker`, `…` those on bytes in memory, on which the other properties are
proved.  For a source that delivers the bytes of `d`, whatever portions it chooses, both give the same; a failure of the source is not
swallowed.  Not every `io.ReadSeeker` that follows the rules of package `io` is such a source: see the theorems at the end.
-/

namespace Mp4.Props

open Mp4 Mp4.Spec Mp4.Src

variable {σ : Type} {k : Rdr σ} {d : Bytes} {place : σ → Nat} {failed : σ → Option Err}

theorem faithful_of_sim {α : Type} {ms : M σ α} {m : PM α} (h : Sim place failed ms m) (t : σ) (ht : failed t = none) :
    Faithful place failed (ms t) (m (place t)) := by
  rcases h t ht with ⟨h1, h2⟩ | h1
  · left
    rw [h2]
    exact ⟨h1, rfl, rfl⟩
  · exact .inr h1

/-- C68: `Unmarshal`, `UnmarshalAny` and `ReadBoxInfo`.  `k.ask` is how much the buffer of `io.CopyN` asks for, `k.fuel` the bound on
the rounds of loops in the model. -/
theorem source_decode_partial (hs : Serves k.src d place failed) (ha : ∀ n, 0 < n → 0 < k.ask n ∧ k.ask n ≤ n) (hf : k.fuel = d.length + 2)
    (t : σ) (ht : failed t = none) :
    (∀ bd ctx ps dst, Faithful place failed (Src.unmarshalBox k bd ctx ps dst t) (unmarshalBox bd d ctx ps dst (place t))) ∧
    (∀ m ty ps ctx, Faithful place failed (Src.unmarshalAny k m ty ps ctx t) (BoxMap.unmarshalAny m d ty ps ctx (place t))) ∧
    Faithful place failed (Src.readBoxInfo k t) (readBoxInfo d (place t)) :=
  ⟨fun bd ctx ps dst => faithful_of_sim (unmarshalBox_sim ⟨hs, ha, hf⟩ bd ctx ps dst) t ht,
    fun m ty ps ctx => faithful_of_sim (unmarshalAny_sim ⟨hs, ha, hf⟩ m ty ps ctx) t ht, faithful_of_sim (readBoxInfo_sim ⟨hs, ha, hf⟩) t ht⟩

/-- C68: `ReadBoxStructure`.  For a handler that returns the errors it gets, the traversal of a source that does not fail is that of the bytes in memory:
the same calls of the handler with the same results, the same values of its variables, the same outcome.  If the source fails, the traversal
ends with an error. -/
theorem source_traversal_partial {S P V : Type} (hs : Serves k.src d place failed) (ha : ∀ n, 0 < n → 0 < k.ask n ∧ k.ask n ≤ n)
    (hf : k.fuel = d.length + 2) (m : BoxMap) (h : Handler S P V) (hh : ∀ x, PassesErrors (h x)) (fuel : Nat) (p : P) (t : σ) (ht : failed t = none)
    (user : S) (log : List (Ev V)) :
    let s := Src.readBoxStructure k m h fuel p ⟨t, user, log⟩
    let r := readBoxStructure m d h fuel p ⟨place t, user, log⟩
    (failed s.2.src = none ∧ s.1 = r.1 ∧ place s.2.src = r.2.pos ∧ s.2.user = r.2.user ∧ s.2.log = r.2.log) ∨
    ∃ e, failed s.2.src = some e ∧ (s.1 = .err e ∨ s.1 = .err .notEnoughBits ∨ s.1 = .err .unsupportedVersion) := by
  intro s r
  rcases readBoxStructure_sim ⟨hs, ha, hf⟩ m h hh fuel p ⟨t, user, log⟩ ht with ⟨h1, h2⟩ | h1
  · left
    have h2 : r = (s.1, abT place s.2) := h2
    rw [h2]
    exact ⟨h1, rfl, rfl, rfl, rfl⟩
  · exact .inr h1

/-- C68: `ExtractBoxes`, `ExtractBoxesWithPayload`, `Probe` and `FindIDRFrames`. -/
theorem source_probe_partial (hs : Serves k.src d place failed) (ha : ∀ n, 0 < n → 0 < k.ask n ∧ k.ask n ≤ n) (hf : k.fuel = d.length + 2)
    (m : BoxMap) (fuel : Nat) (t : σ) (ht : failed t = none) :
    (∀ parent paths, Faithful place failed (Src.extractBoxes k m fuel parent paths t) (extractBoxes m d fuel parent paths (place t))) ∧
    (∀ parent paths, Faithful place failed (Src.extractBoxesWithPayload k m fuel parent paths t) (extractBoxesWithPayload m d fuel parent paths (place t))) ∧
    Faithful place failed (Src.probe k m fuel t) (probe m d fuel (place t)) ∧
    (∀ track, Faithful place failed (Src.findIDRFrames k fuel track t) (findIDRFrames d fuel track (place t))) :=
  ⟨fun parent paths => faithful_of_sim (extractBoxes_sim ⟨hs, ha, hf⟩ m fuel parent paths) t ht,
    fun parent paths => faithful_of_sim (extractBoxesWithPayload_sim ⟨hs, ha, hf⟩ m fuel parent paths) t ht,
    faithful_of_sim (probe_sim ⟨hs, ha, hf⟩ m fuel) t ht, fun track => faithful_of_sim (findIDRFrames_sim ⟨hs, ha, hf⟩ fuel track) t ht⟩

/-- C68: if a call on a source succeeds, the source has not failed, and the same call on the bytes succeeds with the same result. -/
theorem source_success {α : Type} {s : Out α × σ} {m : Out α × Nat} (h : Faithful place failed s m) {a : α} (ha : s.1 = .ok a) :
    failed s.2 = none ∧ m.1 = .ok a := by
  rcases h with ⟨h1, h2, -⟩ | ⟨e, -, h2⟩
  · exact ⟨h1, h2 ▸ ha⟩
  · rw [ha] at h2
    rcases h2 with h2 | h2 | h2 <;> cases h2

/-! ## Sources that meet the hypotheses -/

/-- A source of the bytes of `d` that delivers at most `c` bytes at a time, and fails with `e` when it is asked for bytes from position `limit` on.  Its state: the
position, and whether it has failed. -/
def portions (d : Bytes) (c limit : Nat) (e : Err) : Source (Nat × Bool) where
  read := fun n s =>
    if limit ≤ s.1 then (([], some e), (s.1, true))
    else if d.length ≤ s.1 then (([], some .eof), s)
    else (((d.drop s.1).take (min n c), none), (s.1 + ((d.drop s.1).take (min n c)).length, s.2))
  tell := fun s => (.ok s.1, s)
  toEnd := fun s => (.ok d.length, (d.length, s.2))
  seek := fun p s => (.ok p, (p, s.2))
  back := fun n s => (.ok (s.1 - n), (s.1 - n, s.2))

/-- All of them are as required. -/
theorem portions_serve (d : Bytes) (c limit : Nat) (e : Err) (hc : 0 < c) (he : e ≠ .eof) :
    Serves (portions d c limit e) d (·.1) (fun s => if s.2 then some e else none) where
  read := by
    intro n s hn hs
    have h2 : s.2 = false := by
      cases h : s.2
      · rfl
      · rw [h] at hs; cases hs
    by_cases h1 : limit ≤ s.1
    · have hr : (portions d c limit e).read n s = (([], some e), (s.1, true)) := if_pos h1
      rw [hr]
      exact .inr (.inr ⟨e, rfl, rfl⟩)
    · by_cases h3 : d.length ≤ s.1
      · have hr : (portions d c limit e).read n s = (([], some .eof), s) := (if_neg h1).trans (if_pos h3)
        rw [hr]
        exact .inr (.inl ⟨h3, rfl, rfl, hs⟩)
      · have hr : (portions d c limit e).read n s = (((d.drop s.1).take (min n c), none), (s.1 + ((d.drop s.1).take (min n c)).length, s.2)) :=
          (if_neg h1).trans (if_neg h3)
        rw [hr]
        left
        have hl : ((d.drop s.1).take (min n c)).length = min (min n c) (d.length - s.1) := by rw [List.length_take, List.length_drop]
        refine ⟨((d.drop s.1).take (min n c)).length, by omega, by omega, by omega, ?_, rfl, by rw [h2]; rfl⟩
        simp only
        congr 1
        exact (List.take_eq_take_iff.2 (by rw [hl, List.length_drop]; omega))
  tell := fun s hs => .inl ⟨rfl, rfl, hs⟩
  toEnd := fun s hs => .inl ⟨rfl, rfl, hs⟩
  seek := fun p s hs => .inl ⟨rfl, rfl, hs⟩
  back := fun n s _ hs => .inl ⟨rfl, rfl, hs⟩
  sticks := fun p s x hx => hx
  notEOF := by
    intro s h
    split at h
    · injection h with h; exact he h
    · cases h

/-- a source as the library uses it -/
def rdr (src : Source σ) (d : Bytes) : Rdr σ := ⟨src, fun n => min n 512, d.length + 2⟩

theorem rdr_ask (src : Source σ) (d : Bytes) : ∀ n, 0 < n → 0 < (rdr src d).ask n ∧ (rdr src d).ask n ≤ n := by
  intro n hn
  unfold rdr
  simp only
  omega

/-- the error of an outcome -/
def errOf {α : Type} : Out α → Option Err
  | .err e => some e
  | _ => none

theorem err_of_check {α : Type} {x : Out α} {e : Err} (h : errOf x = some e) : x = .err e := by
  cases x with
  | err e' => injection h with h; rw [h]
  | _ => cases h

/-- an `mfhd` box -/
def mfhdFile : Bytes := [0, 0, 0, 16, 0x6d, 0x66, 0x68, 0x64, 0, 0, 0, 0, 0, 0, 0, 7]

/-- an `emsg` box of version 1 with the strings "a" and "b" and a message of two bytes -/
def emsgFile : Bytes := [0, 0, 0, 38, 0x65, 0x6d, 0x73, 0x67, 1, 0, 0, 0, 0, 0, 0, 1, 0, 0, 0, 0, 0, 0, 0, 2, 0, 0, 0, 3, 0, 0, 0, 4, 0x61, 0, 0x62, 0, 9, 8]

/-- Three bytes at a time, and failing at the eleventh byte. -/
example := source_decode_partial (portions_serve mfhdFile 3 11 .sink (by decide) (by decide)) (rdr_ask (portions mfhdFile 3 11 .sink) mfhdFile) rfl (0, false) rfl
example := source_probe_partial (portions_serve emsgFile 1 99 .sink (by decide) (by decide)) (rdr_ask (portions emsgFile 1 99 .sink) emsgFile) rfl BoxMap.std 9 (0, false) rfl

/-- the failure is reported, -/
example : (Src.unmarshalBox (rdr (portions mfhdFile 3 11 .sink) mfhdFile) Cat.bdMfhd {} 8 Cat.bdMfhd.fields.zero (8, false)).1 = .err .sink :=
  err_of_check (by decide +kernel)

/-- and without it the box is decoded. -/
example : (match (Src.unmarshalBox (rdr (portions mfhdFile 3 99 .sink) mfhdFile) Cat.bdMfhd {} 8 Cat.bdMfhd.fields.zero (8, false)).1 with
    | .ok (n, sv) => n == 8 && sv.uint "SequenceNumber" == 7
    | _ => false) = true := by decide +kernel

/-! ## Readers that follow the rules of package `io` and for which it fails -/

/-- A reader that reports the end together with the last bytes, as package `io` allows. -/
def eager (d : Bytes) : Source Nat where
  read := fun n p =>
    if d.length ≤ p then (([], some .eof), p)
    else (((d.drop p).take n, if d.length ≤ p + n then some .eof else none), p + ((d.drop p).take n).length)
  tell := fun p => (.ok p, p)
  toEnd := fun _ => (.ok d.length, d.length)
  seek := fun q _ => (.ok q, q)
  back := fun n p => (.ok (p - n), p - n)

/-- A reader that delivers nothing, without an error, when it is asked for the byte at `stop` for the first time; package `io` discourages that, but allows it. -/
def pausing (d : Bytes) (stop : Nat) : Source (Nat × Bool) where
  read := fun n s =>
    if s.1 = stop ∧ s.2 = false then (([], none), (s.1, true))
    else if d.length ≤ s.1 then (([], some .eof), s)
    else (((d.drop s.1).take n, none), (s.1 + ((d.drop s.1).take n).length, s.2))
  tell := fun s => (.ok s.1, s)
  toEnd := fun s => (.ok d.length, (d.length, s.2))
  seek := fun p s => (.ok p, (p, s.2))
  back := fun n s => (.ok (s.1 - n), (s.1 - n, s.2))

/-- A reader that cannot say how long it is. -/
def endless (d : Bytes) (e : Err) : Source Nat where
  read := (eager d).read
  tell := fun p => (.ok p, p)
  toEnd := fun p => (.error e, p)
  seek := fun q _ => (.ok q, q)
  back := fun n p => (.ok (p - n), p - n)

/-- what is decoded from the bytes in memory -/
def decodes (d : Bytes) (bd : BoxDef) (ps : Nat) : Bool :=
  match unmarshalBox bd d {} ps bd.fields.zero 8 with
  | (.ok (n, _), _) => n == ps
  | _ => false

/-- C68, refuted: `io.ReadFull` gets all bytes from the reader, and they are those of a box, but `Unmarshal` ends with `io.EOF` at the last one. -/
theorem eof_with_data_refused : (Src.readFullS (rdr (eager mfhdFile) mfhdFile) 16 0).1 = .ok mfhdFile ∧ decodes mfhdFile Cat.bdMfhd 8 = true ∧
    (Src.unmarshalBox (rdr (eager mfhdFile) mfhdFile) Cat.bdMfhd {} 8 Cat.bdMfhd.fields.zero 8).1 = .err .eof :=
  ⟨by decide +kernel, by decide +kernel, err_of_check (by decide +kernel)⟩

/-- C68, refuted: after an empty read, `Unmarshal` gives up. -/
theorem empty_read_refused : (Src.readFullS (rdr (pausing mfhdFile 15) mfhdFile) 16 (0, false)).1 = .ok mfhdFile ∧
    (Src.unmarshalBox (rdr (pausing mfhdFile 15) mfhdFile) Cat.bdMfhd {} 8 Cat.bdMfhd.fields.zero (8, false)).1 =
      .err (.msg "discouraged reader implementation") := ⟨by decide +kernel, err_of_check (by decide +kernel)⟩

/-- the URI decoded from an `emsg` box -/
def emsgScheme (x : Out (Nat × SV)) : Option Bytes :=
  match x with
  | .ok (_, sv) =>
    match sv.get "SchemeIdUri" with
    | some (.str b) => some b
    | _ => none
  | _ => none

/-- C68, refuted: an empty read inside a string of an `emsg` box of version 1 repeats a character, and no error is returned: "aa" instead of "a". -/
theorem empty_read_wrong_string : (Src.readFullS (rdr (pausing emsgFile 33) emsgFile) 38 (0, false)).1 = .ok emsgFile ∧
    emsgScheme (unmarshalBox Cat.bdEmsg emsgFile {} 30 Cat.bdEmsg.fields.zero 8).1 = some [0x61] ∧
    emsgScheme (Src.unmarshalBox (rdr (pausing emsgFile 33) emsgFile) Cat.bdEmsg {} 30 Cat.bdEmsg.fields.zero (8, false)).1 = some [0x61, 0x61] :=
  ⟨by decide +kernel, by decide +kernel, by decide +kernel⟩

/-- a `free` box with three bytes -/
def freeFile : Bytes := [0, 0, 0, 11, 0x66, 0x72, 0x65, 0x65, 1, 2, 3]

/-- Finding: an error of `Seek` is replaced by `not enough bits`. -/
theorem seek_error_replaced : decodes freeFile Cat.bdFree 3 = true ∧
    (Src.unmarshalBox (rdr (endless freeFile .sink) freeFile) Cat.bdFree {} 3 Cat.bdFree.fields.zero 8).1 = .err .notEnoughBits :=
  ⟨by decide +kernel, err_of_check (by decide +kernel)⟩

end Mp4.Props
