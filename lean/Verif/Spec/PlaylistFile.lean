import Verif.Model.PlaylistFile

/-!
# Specification: files that are full
-/

namespace Mp4.Spec

open Mp4 Mp4.Tool

/-- The file takes nothing any more once a `Write` has failed, as on a disk that is full.  (The `Write` that fails may have written a part.) -/
def Full (F : FileFaults) : Prop := ∀ n k m, F n = some k → n < m → F m = some 0

/-- no `Write` fails -/
def Sound (F : FileFaults) : Prop := ∀ n, F n = none

end Mp4.Spec
