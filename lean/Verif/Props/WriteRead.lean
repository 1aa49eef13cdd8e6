import Verif.Lemmas.WriteRead
import Verif.Props.Forest
import Verif.Props.Write

/-!
# C29: reading back what the `Writer` wrote
-/

namespace Mp4.Props

open Mp4

variable {S P V : Type}

/-- The file that is written for a row of boxes. -/
theorem writes_boxes (B : Boxes) (hok : B.Ok true true {}) (hlen : (B.ser true {}).length ≤ 2 ^ 48) :
    ∃ rs s', runOps noFaults (B.tree true {}).ops (WrSt.new ⟨[], 0, 0⟩) = (.ok rs, s') ∧
      s'.file.data = B.ser true {} ∧ s'.stack = [] := by
  obtain ⟨e1, e2⟩ := Boxes.tree_ser B true true {} hok
  obtain ⟨s', h1, h2, h3, h4⟩ := writer_serialises.2 (B.tree true {}) (WrSt.new ⟨[], 0, 0⟩) e2
    (by rw [e1]; simp only [WrSt.new]; omega)
  refine ⟨_, s', h1, ?_, h4⟩
  rw [h2, e1]
  have := writeAt_end [] (B.ser true {})
  simpa [WrSt.new] using this

theorem leaves_raw : ∀ (B : Boxes) (isRoot : Bool) (ctx : Ctx) (pos : Nat) (path : List BoxType), B.Unknown isRoot ctx →
    ∀ x ∈ leaves path (B.forest isRoot ctx pos), BoxMap.std.isSupported x.2.type x.2.ctx = false
  | .nil, _, _, _, _, _ => fun x hx => by simp [Boxes.forest, leaves] at hx
  | .raw start p rest, isRoot, ctx, pos, path, h => by
    intro x hx
    simp only [Boxes.forest, leaves, List.mem_cons] at hx
    rcases hx with rfl | hx
    · exact h.1
    · exact leaves_raw rest _ _ _ _ h.2 x hx
  | .box start bd sv kids rest, isRoot, ctx, pos, path, h => by
    intro x hx
    simp only [Boxes.forest, leaves, List.mem_append] at hx
    rcases hx with hx | hx
    · exact leaves_raw kids _ _ _ _ h.1 x hx
    · exact leaves_raw rest _ _ _ _ h.2 x hx

/-- **C29** — Every row of boxes (any number of boxes, nested to any depth, with any fields that can be represented, header forms as
asked for): let it be written into an empty file by `StartBox`, `Marshal` of the fields, the same for the children, and `EndBox`.
All calls succeed.  Then `ReadBoxStructure` of the file, with a handler that expands every box of known type, calls the handler exactly for the boxes of the
row, in their order, each with its true parent, path, offset, size and header size and the context of its place, and ends without an error; and
`ReadPayload` of each box of known type gives the fields that were written.  The payloads of boxes of unknown type are where their headers say. -/
theorem write_then_read (B : Boxes) (hok : B.Ok true true {}) (hraw : B.Unknown true {}) (hlen : (B.ser true {}).length ≤ 2 ^ 48)
    (note : Handle P → S → S) (sub : Handle P → P) (val : Handle P → List V → V) (p : P) (s : S) (pos fuel : Nat)
    (hf : (B.forest true {} 0).count < fuel) :
    ∃ rs s', runOps noFaults (B.tree true {}).ops (WrSt.new ⟨[], 0, 0⟩) = (.ok rs, s') ∧ s'.stack = [] ∧
      (let d := s'.file.data
       let h := walker note (fun h => BoxMap.std.isSupported h.info.type h.info.ctx) sub val
       (∃ vs, (traverse d h fuel p s pos).1 = .ok vs) ∧
       enters (traverse d h fuel p s pos).2.log = (B.forest true {} 0).boxes none [] ∧
       (∀ x ∈ B.fields true {} 0, ∀ p0, ∃ n p, readPayloadP BoxMap.std d x.1 p0 = (.ok (⟨x.2.1, x.1.type, x.2.2⟩, n), p)) ∧
       ∀ x ∈ B.payloads true {} 0, (d.drop (x.1.offset + x.1.headerSize)).take (x.1.size - x.1.headerSize) = x.2) := by
  obtain ⟨rs, s', h1, h2, h3⟩ := writes_boxes B hok hlen
  refine ⟨rs, s', h1, h3, ?_⟩
  have hl : s'.file.data.length ≤ 2 ^ 48 := by rw [h2]; exact hlen
  obtain ⟨w1, w2, w3⟩ := Boxes.wf_read hl B true true {} [] [] [] 0 hok (by simp) (fun _ => rfl) (fun _ => rfl)
    (by rw [h2]; simp) (.inl rfl)
  obtain ⟨a, b⟩ := visits_every_box_in_order hl _ w1 (leaves_raw B true {} 0 [] hraw) note sub val p s pos fuel hf
  refine ⟨a, b, fun x hx p0 => ?_, w3⟩
  obtain ⟨n, hn, hle⟩ := w2 x hx
  refine ⟨n, x.1.offset + x.1.headerSize + n, ?_⟩
  unfold readPayloadP
  rw [M.bind_ok (seekToPayload_ok (show s'.file.data.length ≤ maxAlloc from hl) hle p0)]
  exact hn

/-! ## A row of boxes that meets the conditions -/

/-- An `ftyp` that names `qt  `. -/
def smallFtyp : SV := [("MajorBrand", .arr [.uint 0x71, .uint 0x74, .uint 0x20, .uint 0x20]), ("MinorVersion", .uint 7),
  ("CompatibleBrands", .slice [.struct [("CompatibleBrand", .arr [.uint 0x71, .uint 0x74, .uint 0x20, .uint 0x20])]])]

/-- `ftyp`; `moov` with a 64-bit size, in which there is an `xxxx`; `xxxx` up to the end of the file -/
def smallBoxes : Boxes :=
  .box { type := tFtyp } Cat.bdFtyp smallFtyp .nil
    (.box { type := ⟨0x6d, 0x6f, 0x6f, 0x76⟩, headerSize := 16 } Cat.bdMoov []
      (.raw { type := ⟨0x78, 0x78, 0x78, 0x78⟩ } [1, 2, 3] .nil)
      (.raw { type := ⟨0x78, 0x78, 0x78, 0x78⟩, extendToEOF := true } [4, 5] .nil))

theorem std_def {t : BoxType} {ctx : Ctx} {bd : BoxDef} (h1 : (BoxMap.std t).map (fun bd => (bd.goName, bd.target.isNone)) =
    [(bd.goName, true)]) (h2 : ∀ b ∈ Cat.allDefs, b.goName = bd.goName → b = bd) : BoxMap.std.getBoxDef t ctx = some bd := by
  obtain ⟨b, e1, e2⟩ := lookup_single h1 ctx
  rw [e1, h2 b (std_mem e1) e2]

example : smallBoxes.Ok true true {} ∧ smallBoxes.Unknown true {} ∧ (smallBoxes.ser true {}).length = 57 ∧
    ((smallBoxes.forest true {} 0).boxes none []).map (fun x => (x.2.1.length, x.2.2.offset, x.2.2.size)) =
      [(1, 0, 20), (1, 20, 27), (2, 36, 11), (1, 47, 10)] := by
  refine ⟨⟨by decide +kernel, by decide, std_ftyp_def _, by decide +kernel, trivial, by decide, by decide,
      std_def (by decide +kernel) ?_, by decide +kernel, ⟨by decide, by decide, by decide, by decide, trivial⟩,
      by decide, by decide, by decide, by decide, trivial⟩, ⟨trivial, ⟨by decide +kernel, trivial⟩, by decide +kernel, trivial⟩,
    by decide +kernel, by decide +kernel⟩
  unfold Cat.allDefs
  simp only [List.forall_mem_cons]
  repeat' apply And.intro
  all_goals first
    | (intro _; rfl)
    | (intro _; trivial)
    | (intro h; exact absurd h (by decide))
    | (intro x hx; exact absurd hx (by simp))

end Mp4.Props
