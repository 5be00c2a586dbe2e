/-
`base64::write::EncoderWriter` (crate `base64`, version 0.22, not part of /repo) with the
`STANDARD` engine, through which `Session::step64` (src/session.rs:228-245) writes, and `step64`
over an arbitrary outer writer. The source of the crate is not in the sandbox; this is its
published behaviour, see DESIGN.md.
-/
import Verif.Model.Session

namespace Rsasl

/-- `EncoderWriter`: up to two input bytes waiting for a triple (`extra_input`), encoded bytes the
outer writer has not taken yet (`output[..output_occupied_len]`), and the outer writer. -/
structure Encoder where
  extra : Bytes
  pending : Bytes
  outer : Writer

/-- `EncoderWriter::new` -/
def Encoder.new (outer : Writer) : Encoder := ⟨[], [], outer⟩

/-- `Write::write`. Output left over from a short write is offered again first, and whatever comes
of that, the call then takes no input. Otherwise the waiting bytes are completed to a triple,
which is encoded together with the whole triples of the rest, at most 1024 characters of output,
and offered to the outer writer once. -/
def Encoder.write (e : Encoder) (input : Bytes) : Except IoErr Nat × Encoder :=
  if input = [] then (.ok 0, e)
  else if e.pending ≠ [] then
    match e.outer.write e.pending with
    | (.ok n, w) => (.ok 0, { e with pending := e.pending.drop n, outer := w })
    | (.error er, w) => (.error er, { e with outer := w })
  else if e.extra.length + input.length < 3 then
    (.ok input.length, { e with extra := e.extra ++ input })
  else
    let fill := if e.extra = [] then 0 else 3 - e.extra.length
    let room := if e.extra = [] then 768 else 765
    let rest := input.drop fill
    let n := min (rest.length / 3 * 3) room
    let buf := Base64.encode (e.extra ++ input.take fill ++ rest.take n)
    match e.outer.write buf with
    | (.ok k, w) => (.ok (fill + n), ⟨[], buf.drop k, w⟩)
    | (.error er, w) => (.error er, { e with outer := w })

/-- `write_all_encoded_output`: offers the pending output until it is taken; an interruption is
tried again, and `Ok(0)` is too. What could not be written is returned. -/
def flushGo : List WResp → Bytes → Bytes → Bytes × Writer
  | s, out, [] => ([], ⟨out, s⟩)
  | [], out, b :: buf => ([], ⟨out ++ (b :: buf), []⟩)
  | .accept n :: s, out, b :: buf => flushGo s (out ++ (b :: buf).take n) ((b :: buf).drop n)
  | .fail .interrupted :: s, out, b :: buf => flushGo s out (b :: buf)
  | .fail _ :: s, out, b :: buf => (b :: buf, ⟨out, s⟩)

/-- `Drop` (`write_final_leftovers`, whose error is ignored): the pending output, then the waiting
bytes with padding. Returns the outer writer. -/
def Encoder.drop (e : Encoder) : Writer :=
  match flushGo e.outer.sched e.outer.out e.pending with
  | ([], w) => (flushGo w.sched w.out (Base64.encode e.extra)).2
  | (_ :: _, w) => w

/-- `Write::write_vectored`, which `EncoderWriter` does not override: the first buffer that is not
empty. -/
def Encoder.writeVectored (e : Encoder) (bufs : List Bytes) : Except IoErr Nat × Encoder :=
  e.write ((bufs.find? (· ≠ [])).getD [])

/-- `write_all` (the default of `Write`, as `writeAllGo`) into the encoder. -/
def Encoder.writeAll : Nat → Encoder → Bytes → IoRes × Encoder
  | 0, e, _ => (.diverge, e)
  | fuel + 1, e, buf =>
    if buf = [] then (.ok 0, e)
    else
      match e.write buf with
      | (.ok 0, e) => (.err .writeZero, e)
      | (.ok (n + 1), e) => e.writeAll fuel (buf.drop (n + 1))
      | (.error .interrupted, e) => e.writeAll fuel buf
      | (.error er, e) => (.err er, e)

/-- `write_vectored_inner` (src/vectored_io.rs:18-47, as `VectoredWriter.writeVectoredInner`) into
the encoder. -/
def VectoredWriter.innerOver (vw : VectoredWriter) (bufs : List Bytes) (e : Encoder) :
    IoRes × VectoredWriter × List Bytes × Encoder :=
  if vw.skip ≥ vw.data.length then (.ok 0, vw, bufs, e)
  else
    match e.writeVectored (bufs.drop vw.skip) with
    | (.error er, e) => (.err er, vw, bufs, e)
    | (.ok len, e) =>
      let (remove, acc) := countRemove len (vw.data.drop vw.skip) 0 0
      let skip := vw.skip + remove
      if h : skip < vw.data.length then
        let rem := len - acc
        let cur := vw.data[skip]
        if rem ≤ cur.length then
          (.ok len, ⟨skip, vw.data.set skip (cur.drop rem)⟩, bufs.set skip (cur.drop rem), e)
        else (.panic, ⟨skip, vw.data⟩, bufs, e)
      else (.ok len, ⟨skip, vw.data⟩, bufs, e)

/-- The loop of `write_all_vectored` (src/vectored_io.rs:57-67, as `VectoredWriter.loop`) into the
encoder. -/
def VectoredWriter.loopOver :
    Nat → VectoredWriter → List Bytes → Nat → Encoder → IoRes × VectoredWriter × Encoder
  | 0, vw, _, _, e => (.diverge, vw, e)
  | fuel + 1, vw, bufs, written, e =>
    match vw.innerOver bufs e with
    | (.ok len, vw, bufs, e) =>
      if len = 0 then (.ok written, vw, e)
      else if vw.skip < vw.data.length then loopOver fuel vw bufs (written + len) e
      else (.ok (written + len), vw, e)
    | (.err er, vw, _, e) => (.err er, vw, e)
    | (.panic, vw, _, e) => (.panic, vw, e)
    | (.diverge, vw, _, e) => (.diverge, vw, e)

/-- `write_all_vectored`, src/vectored_io.rs:49-70, into the encoder. -/
def VectoredWriter.writeAllOver (fuel : Nat) (vw : VectoredWriter) (e : Encoder) :
    IoRes × VectoredWriter × Encoder :=
  if vw.skip ≥ vw.data.length then (.ok 0, vw, e)
  else vw.loopOver fuel vw.data 0 e

/-- A call's result as an answer of a writer. -/
def WResp.of : Except IoErr Nat → WResp
  | .ok n => .accept n
  | .error e => .fail e

/-- One `write` after the other: the answers, what was taken, and the encoder afterwards. -/
def Encoder.serve : Encoder → List Bytes → List WResp × Bytes × Encoder
  | e, [] => ([], [], e)
  | e, b :: bs =>
    let (r, e') := e.write b
    let taken := match r with
      | .ok n => b.take n
      | .error _ => []
    let (rs, t, e'') := e'.serve bs
    (WResp.of r :: rs, taken ++ t, e'')

/-- `Session::step64` over an outer writer, src/session.rs:228-245. `offered` are the buffers the
mechanism hands to the encoder, in order; they have to be what it does hand over, which
`Spec.Over64` asks for. `writer64` is dropped when the function returns, with `Ok` or with an
error; the result does not depend on that. The third component is what the mechanism believes to
have written. -/
def Session.step64Over (m : Mech) (env : Env) (s : Session m.S) (input : Option Bytes)
    (outer : List WResp) (offered : List Bytes) : Reply State × Session m.S × Bytes :=
  let (resps, _, enc) := (Encoder.new ⟨[], outer⟩).serve offered
  match input with
  | some text =>
    match Base64.decode text with
    | none => (⟨.err .base64, []⟩, s, [])
    | some bytes =>
      let (r, s) := s.step m env ⟨some bytes, resps⟩
      (⟨r.res, enc.drop.out⟩, s, r.out)
  | none =>
    let (r, s) := s.step m env ⟨none, resps⟩
    (⟨r.res, enc.drop.out⟩, s, r.out)

end Rsasl
