/-
Output writers: `std::io::Write` as an arbitrary schedule of responses, `write_all`, and
`VectoredWriter` (`src/vectored_io.rs`).
-/
import Verif.Model.Error

namespace Rsasl

/-- What a writer answers to one `write` / `write_vectored` call: it takes at most `n` of the
offered bytes (`accept n`), or fails. -/
inductive WResp where
  | accept (n : Nat)
  | fail (e : IoErr)
deriving DecidableEq

/-- A writer: the bytes it accepted so far and its answers to the coming calls. When the
schedule is used up it accepts everything. Every terminating run against any writer that keeps
the contract of `Write` (never claims more bytes than offered, the bytes taken are a prefix of
the offered ones) is a run against such a schedule. -/
structure Writer where
  out : Bytes
  sched : List WResp

/-- One `write` (or `write_vectored`, for the concatenation of the buffers). -/
def Writer.write (w : Writer) (offered : Bytes) : Except IoErr Nat × Writer :=
  match w.sched with
  | [] => (.ok offered.length, { w with out := w.out ++ offered })
  | .accept n :: s =>
    (.ok (min n offered.length), { out := w.out ++ offered.take n, sched := s })
  | .fail e :: s => (.error e, { w with sched := s })

/-- `Write::write_all` of `std`: repeats `write` until the buffer is empty, retries on
`Interrupted`, turns `Ok(0)` into `WriteZero`. Written by recursion on the schedule. -/
def writeAllGo : List WResp → Bytes → Bytes → Except IoErr Unit × Writer
  | s, out, [] => (.ok (), ⟨out, s⟩)
  | [], out, b :: buf => (.ok (), ⟨out ++ (b :: buf), []⟩)
  | .accept 0 :: s, out, _ :: _ => (.error .writeZero, ⟨out, s⟩)
  | .accept (n + 1) :: s, out, b :: buf =>
    writeAllGo s (out ++ (b :: buf).take (n + 1)) ((b :: buf).drop (n + 1))
  | .fail .interrupted :: s, out, b :: buf => writeAllGo s out (b :: buf)
  | .fail e :: s, out, _ :: _ => (.error e, ⟨out, s⟩)

def Writer.writeAll (w : Writer) (buf : Bytes) : Except IoErr Unit × Writer :=
  writeAllGo w.sched w.out buf

/-- Result of the vectored writer. `panic` is an out-of-range slice, `diverge` a loop that does
not end. -/
inductive IoRes where
  | ok (n : Nat)
  | err (e : IoErr)
  | panic
  | diverge
deriving DecidableEq

/-- `VectoredWriter<N>`, src/vectored_io.rs:6-10; `N` is the length of `data`. -/
structure VectoredWriter where
  skip : Nat
  data : List Bytes

/-- src/vectored_io.rs:14-16 -/
def VectoredWriter.new (data : List Bytes) : VectoredWriter := ⟨0, data⟩

/-- The `for` loop of src/vectored_io.rs:29-38: how many whole buffers were written, and their
total length. -/
def countRemove (len : Nat) : List Bytes → Nat → Nat → Nat × Nat
  | [], remove, acc => (remove, acc)
  | buf :: bufs, remove, acc =>
    if acc + buf.length > len then (remove, acc)
    else countRemove len bufs (remove + 1) (acc + buf.length)

/-- `write_vectored_inner`, src/vectored_io.rs:18-47. `bufs` is the array of `IoSlice`s, kept
separately from `data` as in the code. Line 42 slices `data[skip]` at `rem`, which panics if
`rem` is larger than the buffer. -/
def VectoredWriter.writeVectoredInner (vw : VectoredWriter) (bufs : List Bytes) (w : Writer) :
    IoRes × VectoredWriter × List Bytes × Writer :=
  if vw.skip ≥ vw.data.length then (.ok 0, vw, bufs, w)
  else
    match w.write (bufs.drop vw.skip).flatten with
    | (.error e, w) => (.err e, vw, bufs, w)
    | (.ok len, w) =>
      let (remove, acc) := countRemove len (vw.data.drop vw.skip) 0 0
      let skip := vw.skip + remove
      if h : skip < vw.data.length then
        let rem := len - acc
        let cur := vw.data[skip]
        if rem ≤ cur.length then
          (.ok len, ⟨skip, vw.data.set skip (cur.drop rem)⟩, bufs.set skip (cur.drop rem), w)
        else (.panic, ⟨skip, vw.data⟩, bufs, w)
      else (.ok len, ⟨skip, vw.data⟩, bufs, w)

/-- The `while` loop of src/vectored_io.rs:57-67. The fuel bounds the number of iterations;
running out is reported as `diverge` (and proved impossible for the fuel used below). -/
def VectoredWriter.loop :
    Nat → VectoredWriter → List Bytes → Nat → Writer → IoRes × VectoredWriter × Writer
  | 0, vw, _, _, w => (.diverge, vw, w)
  | fuel + 1, vw, bufs, written, w =>
    match vw.writeVectoredInner bufs w with
    | (.ok len, vw, bufs, w) =>
      if len = 0 then (.ok written, vw, w)
      else if vw.skip < vw.data.length then loop fuel vw bufs (written + len) w
      else (.ok (written + len), vw, w)
    | (.err e, vw, _, w) => (.err e, vw, w)
    | (.panic, vw, _, w) => (.panic, vw, w)
    | (.diverge, vw, _, w) => (.diverge, vw, w)

/-- `write_all_vectored`, src/vectored_io.rs:49-70. Every iteration uses one entry of the
schedule or, once that is empty, writes everything; so `sched.length + 1` iterations do. -/
def VectoredWriter.writeAllVectored (vw : VectoredWriter) (w : Writer) :
    IoRes × VectoredWriter × Writer :=
  if vw.skip ≥ vw.data.length then (.ok 0, vw, w)
  else vw.loop (w.sched.length + 1) vw.data 0 w

end Rsasl
