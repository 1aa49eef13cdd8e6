import Verif.Lemmas.Golden

/-!
# C42: `emsg`
-/

namespace Mp4.Props

open Mp4 Mp4.Spec

/-- The fields of an event message, ISO/IEC 23009-1 §5.10.3.3.  `time` is `presentation_time_delta` in version 0 and
`presentation_time` in version 1. -/
structure Event where
  flags : Nat × Nat × Nat
  scheme : Bytes
  value : Bytes
  timescale : Nat
  time : Nat
  duration : Nat
  id : Nat
  data : Bytes

namespace Event

/-- As a value of the Go type `Emsg`. -/
def toGo (e : Event) (version : Nat) : SV := [
  fullBox version e.flags.1 e.flags.2.1 e.flags.2.2,
  ("SchemeIdUri", .str e.scheme), ("Value", .str e.value), ("Timescale", .uint e.timescale),
  ("PresentationTimeDelta", .uint (if version = 0 then e.time else 0)),
  ("PresentationTime", .uint (if version = 0 then 0 else e.time)),
  ("EventDuration", .uint e.duration), ("Id", .uint e.id), ("MessageData", .slice (goBytes e.data))]

/-- The payload according to the standard, bit by bit. -/
def bits (e : Event) (version : Nat) : List Bool :=
  natBits 8 version ++ natBits 8 e.flags.1 ++ natBits 8 e.flags.2.1 ++ natBits 8 e.flags.2.2 ++
  (if version = 0 then
    cstring e.scheme ++ cstring e.value ++
    natBits 32 e.timescale ++ natBits 32 e.time ++ natBits 32 e.duration ++ natBits 32 e.id
   else
    natBits 32 e.timescale ++ natBits 64 e.time ++ natBits 32 e.duration ++ natBits 32 e.id ++
    cstring e.scheme ++ cstring e.value) ++
  bytesBits e.data

/-- The numbers fit their fields, and there is no NUL in the strings. -/
structure Valid (e : Event) (version : Nat) : Prop where
  flags : e.flags.1 < 256 ∧ e.flags.2.1 < 256 ∧ e.flags.2.2 < 256
  scheme : ∀ b ∈ e.scheme, b ≠ 0
  value : ∀ b ∈ e.value, b ≠ 0
  timescale : e.timescale < 2 ^ 32
  time : e.time < 2 ^ (if version = 0 then 32 else 64)
  duration : e.duration < 2 ^ 32
  id : e.id < 2 ^ 32
  size : e.scheme.length + e.value.length + e.data.length < 2 ^ 47

end Event

/-- C42.  In each of its two versions `Marshal` writes an event message in the order that version requires, and
`Unmarshal` of those bytes gives all the fields back. -/
theorem emsg_encodes (e : Event) (version : Nat) (hv : version = 0 ∨ version = 1) (h : e.Valid version) (ctx : Ctx) :
    Encodes Cat.bdEmsg ctx (e.toGo version) (e.bits version) := by
  obtain ⟨⟨f0, f1, f2⟩, scheme, value, timescale, time, duration, id, data⟩ := e
  obtain ⟨⟨h1, h2, h3⟩, h4, h5, h6, h7, h8, h9, h10⟩ := h
  have n1 : noNul scheme = true := by simpa [noNul] using h4
  have n2 : noNul value = true := by simpa [noNul] using h5
  rcases hv with rfl | rfl
  · simp only [if_true, Nat.reducePow] at h6 h7 h8 h9 h10
    refine encodes_intro (scheme.length + value.length + data.length + 22) (by simp [Cat.allDefs]) ?_ rfl ?_ ?_ ?_ rfl rfl
    · layout_tac [SV.flags, SV.version, SV.full, Event.toGo, Event.bits, Cat.bdEmsg, Cat.fsEmsg]
    · simp [Event.bits]; omega
    · omega
    · fits_tac [SV.flags, SV.version, SV.full, Event.toGo, Event.bits, Cat.bdEmsg, Cat.fsEmsg, h1, h2, h3, h6, h7, h8, h9, n1, n2]
      fits_close
  · simp only [Nat.one_ne_zero, if_false, Nat.reducePow] at h6 h7 h8 h9 h10
    refine encodes_intro (scheme.length + value.length + data.length + 26) (by simp [Cat.allDefs]) ?_ rfl ?_ ?_ ?_ rfl rfl
    · layout_tac [SV.flags, SV.version, SV.full, Event.toGo, Event.bits, Cat.bdEmsg, Cat.fsEmsg]
    · simp [Event.bits]; omega
    · omega
    · fits_tac [SV.flags, SV.version, SV.full, Event.toGo, Event.bits, Cat.bdEmsg, Cat.fsEmsg, h1, h2, h3, h6, h7, h8, h9, n1, n2]
      fits_close

/-- an event message with everything in it -/
def someEvent : Event := ⟨(0, 0, 1), [0x75, 0x72, 0x6e], [0x31], 1000, 2 ^ 31, 5, 7, [0, 1, 2, 0]⟩

example : someEvent.Valid 0 ∧ someEvent.Valid 1 ∧ { someEvent with time := 2 ^ 40 }.Valid 1 := by
  refine ⟨⟨?_, ?_, ?_, ?_, ?_, ?_, ?_, ?_⟩, ⟨?_, ?_, ?_, ?_, ?_, ?_, ?_, ?_⟩, ⟨?_, ?_, ?_, ?_, ?_, ?_, ?_, ?_⟩⟩ <;> decide

end Mp4.Props
