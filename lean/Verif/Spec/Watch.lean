import Verif.Model.Bitio

/-! # Observing failures of a destination -/

namespace Mp4.Spec

open Mp4

/-- The same destination, which also remembers whether any write has failed. -/
def watch {σ : Type} (k : Sink σ) : Sink (σ × Bool) :=
  ⟨fun p s => match k.write p s.1 with
    | (true, t) => (true, (t, s.2))
    | (false, t) => (false, (t, true))⟩

end Mp4.Spec
