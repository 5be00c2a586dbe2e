/-
Keys that a SCRAM client hands out for caching.
-/
import Verif.Model.World

namespace Rsasl

/-- The client handed these keys to its callback, and said that they belong to this salt and iteration count. -/
def Spec.HandedOut (es : List Event) (salt : Bytes) (it : UInt32) (k : CachedPassword) : Prop :=
  .notified .scramCachedPassword (.chain [⟨.salt, salt⟩, ⟨.iterations, it⟩]) ∈ es ∧ .delivered .scramCachedPassword k ∈ es

end Rsasl
