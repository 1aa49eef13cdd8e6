import Verif.Spec.Source

/-!
# Handlers whose run does not depend on how the source delivers its bytes
-/

namespace Mp4.Spec

open Mp4 Mp4.Src

/-- A handler that gives `ReadData` destinations that take everything, and that does not look at what such a destination has received when
`ReadData` fails.  What it does with errors is left open. -/
def WholeData {S P V : Type} : Prog S P V → Prop
  | .ret _ => True
  | .err _ => True
  | .get g => ∀ s, WholeData (g s)
  | .set _ g => WholeData g
  | .stream _ g => ∀ p, WholeData (g p)
  | .readPayload g => ∀ r, WholeData (g r)
  | .readData w g => w.cap = none ∧ (∀ e b, g (.error e) b = g (.error e) []) ∧ ∀ r b, WholeData (g r b)
  | .expand _ g => ∀ r, WholeData (g r)

/-- The source delivers the bytes of `d`, in portions of any size, and never fails. -/
def Delivers {σ : Type} (k : Source σ) (d : Bytes) (place : σ → Nat) : Prop := Serves k d place fun _ => none

end Mp4.Spec
