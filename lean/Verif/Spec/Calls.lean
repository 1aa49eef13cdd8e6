import Verif.Spec.Forest

/-!
# How often a handler is called

`Prog.AtMost n` — the program of a handler calls `Expand` at most `n` times.
-/

namespace Mp4

variable {S P V : Type}

/-- Whatever it reads, the program calls `Expand` at most `n` times. -/
def Prog.AtMost : Nat → Prog S P V → Prop
  | _, .ret _ => True
  | _, .err _ => True
  | n, .get k => ∀ s, (k s).AtMost n
  | n, .set _ k => k.AtMost n
  | n, .stream _ k => ∀ p, (k p).AtMost n
  | n, .readPayload k => ∀ r, (k r).AtMost n
  | n, .readData _ k => ∀ r b, (k r b).AtMost n
  | 0, .expand _ _ => False
  | n + 1, .expand _ k => ∀ r, (k r).AtMost n

/-- The handler calls `Expand` at most once for each box. -/
def ExpandsOnce (h : Handler S P V) : Prop := ∀ x, (h x).AtMost 1

/-- `n` headers of `moov` boxes, each of which extends to the end of the file: every box is inside the one before. -/
def nested : Nat → Bytes
  | 0 => []
  | n + 1 => 0 :: 0 :: 0 :: 0 :: 0x6d :: 0x6f :: 0x6f :: 0x76 :: nested n

end Mp4
