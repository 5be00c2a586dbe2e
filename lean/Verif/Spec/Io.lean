/-
Specification side of writers.
-/
import Verif.Model.Io

namespace Rsasl

/-- A writer that takes at least one byte per call and never fails. -/
def Cooperative (sched : List WResp) : Prop := ∀ r ∈ sched, ∃ n, r = .accept (n + 1)

/-- Taking a positive amount or reporting `Interrupted`: what `write_all` copes with. -/
def Patient (sched : List WResp) : Prop :=
  ∀ r ∈ sched, (∃ n, r = .accept (n + 1)) ∨ r = .fail .interrupted

/-- The writer never answers `Ok(0)`. It may take as little as it likes otherwise, be
interrupted, and fail. -/
def NeverZero (sched : List WResp) : Prop := ∀ r ∈ sched, r ≠ .accept 0

theorem Cooperative.neverZero {s : List WResp} (h : Cooperative s) : NeverZero s := by
  rintro r hr rfl
  obtain ⟨n, h⟩ := h _ hr
  cases h

theorem Cooperative.patient {s : List WResp} (h : Cooperative s) : Patient s :=
  fun r hr => .inl (h r hr)

theorem Cooperative.nil : Cooperative [] := fun _ h => nomatch h

/-- The bytes a vectored writer still has to deliver. -/
def VectoredWriter.rest (vw : VectoredWriter) : Bytes := (vw.data.drop vw.skip).flatten

/-- Calls to `write_all_vectored` on one vectored writer, with a writer each; what each of those
accepted. -/
def VectoredWriter.resume : VectoredWriter → List (List WResp) → List Bytes × VectoredWriter
  | vw, [] => ([], vw)
  | vw, s :: ss =>
    let (_, vw, w) := vw.writeAllVectored ⟨[], s⟩
    let (outs, vw) := vw.resume ss
    (w.out :: outs, vw)

end Rsasl
