import Verif.Spec.Forest

/-!
# Which boxes are asked for by paths
-/

namespace Mp4.Props

open Mp4

/-- The path has the pattern; the type `0x00000000` in the pattern stands for any type. -/
def hasPattern : List BoxType → List BoxType → Bool
  | [], [] => true
  | q :: qs, t :: ts => (q == ⟨0, 0, 0, 0⟩ || q == t) && hasPattern qs ts
  | _, _ => false

/-- The path is asked for; paths through boxes of type `0x00000000` never are. -/
def Asked (paths : List (List BoxType)) (path : List BoxType) : Prop :=
  (∀ t ∈ path, t ≠ ⟨0, 0, 0, 0⟩) ∧ ∃ q ∈ paths, hasPattern q path = true

/-- Paths below this one may be asked for: it has the pattern of a proper prefix of one of the paths. -/
def AskedBelow (paths : List (List BoxType)) (path : List BoxType) : Prop :=
  (∀ t ∈ path, t ≠ ⟨0, 0, 0, 0⟩) ∧ ∃ a b, a ++ b ∈ paths ∧ b ≠ [] ∧ hasPattern a path = true

instance (paths : List (List BoxType)) (path : List BoxType) : Decidable (Asked paths path) := by
  unfold Asked; infer_instance

/-- Those boxes of the row that are asked for; paths are relative to the parent of the row. -/
def askedBoxes (paths : List (List BoxType)) (F : Forest) : List BoxInfo :=
  ((F.boxes none []).filter (fun x => decide (Asked paths x.2.1))).map (·.2.2)

end Mp4.Props
