import Verif.Lemmas.SourceEdit
import Verif.Props.SourceTool
import Verif.Props.EditBoxes
import Verif.Props.Rewrite

/-!
# C92: a program that rewrites a file does not take a failure of the input for its end
-/

namespace Mp4.Props

open Mp4 Mp4.Spec Mp4.Src Mp4.Edit

variable {σ : Type} {k : Rdr σ} {d : Bytes} {place : σ → Nat} {failed : σ → Option Err}

/-- A program that reads from a source (`s`: its outcome, what it has written, the source afterwards), compared with the same in memory (`m`): if the source has not failed,
the outcome and the output are the same; if it has failed, the program does not report success. -/
def WritesFaithfully (failed : σ → Option Err) (s : Out Unit × Bytes × σ) (m : Out Unit × Bytes) : Prop :=
  (failed s.2.2 = none ∧ s.1 = m.1 ∧ s.2.1 = m.2) ∨ ∃ e, failed s.2.2 = some e ∧ s.1 ≠ .ok ()

/-- **C92**, edit — `mp4tool edit` with any options, from a source that delivers the file in portions of any size and may fail at any time. -/
theorem source_edit (hs : Serves k.src d place failed) (ha : ∀ n, 0 < n → 0 < k.ask n ∧ k.ask n ≤ n) (hf : k.fuel = d.length + 2)
    (cfg : Config) (fuel : Nat) (t : σ) (ht : failed t = none) (h0 : place t = 0) :
    WritesFaithfully failed (Src.editFile k cfg fuel t) (Edit.editFile noFaults d cfg fuel) := by
  rcases writing_any ⟨hs, ha, hf⟩ (editAct k cfg) (Edit.handler noFaults d cfg) (editAct_simA ⟨hs, ha, hf⟩ cfg) fuel t ht h0 with ⟨h1, h2⟩ | h1
  · exact .inl ⟨h1, congrArg Prod.fst h2, congrArg Prod.snd h2⟩
  · exact .inr h1

/-- **C92**, the program of the README — for any type of boxes and any change of their fields. -/
theorem source_rewrite (hs : Serves k.src d place failed) (ha : ∀ n, 0 < n → 0 < k.ask n ∧ k.ask n ≤ n) (hf : k.fuel = d.length + 2)
    (ty : BoxType) (go : String) (f : SV → SV) (fuel : Nat) (t : σ) (ht : failed t = none) (h0 : place t = 0) :
    WritesFaithfully failed (Src.rewriteFile k ty go f fuel t) (Rewrite.rewriteFile noFaults d ty go f fuel) := by
  rcases writing_any ⟨hs, ha, hf⟩ (rewriteAct k ty go f) (Rewrite.handler noFaults d ty go f) (rewriteAct_simA ⟨hs, ha, hf⟩ ty go f) fuel t ht h0 with ⟨h1, h2⟩ | h1
  · exact .inl ⟨h1, congrArg Prod.fst h2, congrArg Prod.snd h2⟩
  · exact .inr h1

/-- **C92** — Success means that the input has been read without a failure, and that the output is the one of the whole input. -/
theorem source_written {s : Out Unit × Bytes × σ} {m : Out Unit × Bytes} (h : WritesFaithfully failed s m) (ho : s.1 = .ok ()) :
    failed s.2.2 = none ∧ m = (.ok (), s.2.1) := by
  rcases h with ⟨h1, h2, h3⟩ | ⟨e, -, h2⟩
  · exact ⟨h1, Prod.ext (h2.symm.trans ho) h3.symm⟩
  · exact absurd ho h2

/-- **C92**, with C76 — From any source of a file that is the bytes of a row of boxes, `mp4tool edit` either writes the bytes of the edited row and reports success, or the source has failed
and it does not report success. -/
theorem source_edit_boxes (B : Boxes) (hs : Serves k.src (B.ser true {}) place failed) (ha : ∀ n, 0 < n → 0 < k.ask n ∧ k.ask n ≤ n)
    (hf : k.fuel = (B.ser true {}).length + 2) (hok : B.Ok true true {}) (hlen : (B.ser true {}).length ≤ 2 ^ 48) (time : Option Nat)
    (hti : ∀ t, time = some t → t < 2 ^ 64 - 1) (names : List Bytes) (hn : ∀ s ∈ names, NoComma s) (hraw : B.Opaque (ToDrop names) true {})
    (hft : ¬ ToDrop names tFtyp) (hk : ¬ ToDrop names tKeys) (fuel : Nat) (hfuel : (B.forest true {} 0).count < fuel)
    (t : σ) (ht : failed t = none) (h0 : place t = 0) :
    let r := Src.editFile k (Config.ofOptions time (joinComma names)) fuel t
    (failed r.2.2 = none ∧ r.1 = .ok () ∧ r.2.1 = (B.edit (ToDrop names) time).ser true {}) ∨ ∃ e, failed r.2.2 = some e ∧ r.1 ≠ .ok () := by
  intro r
  have h := source_edit hs ha hf (Config.ofOptions time (joinComma names)) fuel t ht h0
  rw [edit_boxes B hok hlen time hti names hn hraw hft hk fuel hfuel] at h
  exact h

/-! ## Cases -/

/-- A row of boxes in blocks of any size -/
example (size : Nat) (h : 0 < size) : ((Src.editFile (rdr (blocks (editRow.ser true {}) size) (editRow.ser true {})) (Config.ofOptions (some 258) (joinComma editExNames)) 7 0).1,
    (Src.editFile (rdr (blocks (editRow.ser true {}) size) (editRow.ser true {})) (Config.ofOptions (some 258) (joinComma editExNames)) 7 0).2.1) =
      (.ok (), (editRow.edit (ToDrop editExNames) (some 258)).ser true {}) := by
  rcases source_edit_boxes (k := rdr (blocks (editRow.ser true {}) size) (editRow.ser true {})) (failed := fun _ => none) editRow (blocks_deliver _ size h)
    (rdr_ask (blocks (editRow.ser true {}) size) (editRow.ser true {})) rfl editRow_ok.1 (by decide +kernel) (some 258) (by intro t e; cases e; decide) editExNames (by unfold NoComma; decide)
    (Boxes.unknown_opaque _ _ _ editRow_ok.2) (by decide) (by decide) 7 (by decide +kernel) 0 rfl rfl with ⟨-, h1, h2⟩ | ⟨e, h1, -⟩
  · exact Prod.ext h1 h2
  · cases h1

/-- A source that fails inside `mdat`, which is being copied: an error, and what was there before it has been written. -/
example : (Src.editFile (rdr (portions (editRow.ser true {}) 1 73 .sink) (editRow.ser true {})) (Config.ofOptions none []) 7 (0, false)).1 = .err .sink ∧
    (Src.editFile (rdr (portions (editRow.ser true {}) 1 73 .sink) (editRow.ser true {})) (Config.ofOptions none []) 7 (0, false)).2.1.length = 73 :=
  ⟨err_of_check (by decide +kernel), by decide +kernel⟩

/-- The program of the README, in blocks of any size: as in C72 -/
example (size : Nat) (h : 0 < size) : (Src.rewriteFile (rdr (blocks eventFile size) eventFile) Rewrite.tEmsg "Emsg" (Rewrite.setMessage Rewrite.hello) 4 0).1 =
    (Rewrite.readme noFaults eventFile 4).1 := by
  rcases source_rewrite (k := rdr (blocks eventFile size) eventFile) (failed := fun _ => none) (blocks_deliver eventFile size h)
    (rdr_ask (blocks eventFile size) eventFile) rfl Rewrite.tEmsg "Emsg" (Rewrite.setMessage Rewrite.hello) 4 0 rfl rfl with ⟨-, h1, -⟩ | ⟨e, h1, -⟩
  · exact h1
  · cases h1

end Mp4.Props
