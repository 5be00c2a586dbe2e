/-
The client of GNU SASL for the tests against other implementations (`interop/gsasl-client/main.c`): how it
reads lines, sends its messages and tells the outcome. The library is a parameter. Output to the
terminal is left out, but for the outcome.
-/
import Verif.Model.Bytes

namespace Rsasl.GsaslClient

/-- What `gsasl_step64` returns: `GSASL_OK`, `GSASL_NEEDS_MORE`, or an error. -/
inductive Rc where
  | ok | needsMore | error
deriving DecidableEq

/-- The library: a client with its properties set (main.c:302-316, `none` if a call fails), and
`gsasl_step64`. Texts are C strings without their ends; no output is `none`. -/
structure Lib where
  S : Type
  start : Bytes → Option S
  step64 : S → Bytes → Rc × Option Bytes × S

/-- What a call of `recv` meets: bytes that came in (none if the server has closed the connection), or an
error. A call with less room gets the first part. -/
inductive Recv where
  | data (b : Bytes)
  | failed
deriving DecidableEq

/-- What a call of `send` returns: the number of bytes it took (at most what it was given), or an
error. -/
inductive Sent where
  | took (n : Nat)
  | failed
deriving DecidableEq

/-- How the program ends. -/
inductive End where
  /-- the line with the outcome was read (return value 0); it says success, failure, or neither -/
  | outcome (v : Option Bool)
  /-- another return value -/
  | code (n : Int)
  /-- undefined behaviour -/
  | undefined
  /-- it waits for more from the server -/
  | waiting
deriving DecidableEq

/-- Everything sent, and the end. -/
structure Run where
  sent : Bytes
  res : End
deriving DecidableEq

/-- The search for a line feed: from position `i` up to the end of what was received. -/
def scan (buf : Bytes) (i : Nat) : Nat := i + ((buf.drop i).takeWhile (· ≠ 10)).length

/-- What is left of a piece goes to the next `recv`. -/
def unread (b : Bytes) (rest : List Recv) : List Recv :=
  match b with
  | [] => rest
  | b => .data b :: rest

/-- How a loop that receives a line ends: with the buffer, the position of the line feed, and what is still
to come; or with the end of the program; or `torn`, see `recvLine`. -/
inductive Got where
  | line (buf : Bytes) (idx : Nat) (rest : List Recv)
  | torn (buf : Bytes) (rest : List Recv)
  | fail (e : End)
deriving DecidableEq

/-- The loop that receives the server's messages, main.c:38-71. `cap` is the size of the buffer, `buf` what it
holds, `nl` the variable `newline_idx`. If the loop goes on there was room for the whole piece. -/
def recvMessage (cap : Nat) : List Recv → Bytes → Nat → Got
  | [], _, _ => .fail .waiting
  | .failed :: _, _, _ => .fail (.code (-2))
  | .data b :: rest, buf, nl =>
    let room := cap - buf.length
    let got := b.take room
    if got = [] then .fail (.code (-2))
    else
      let buf := buf ++ got
      let nl := scan buf nl
      if cap ≤ nl then .fail (.code (-4))
      else if nl = buf.length then recvMessage cap rest buf nl
      else .line buf nl (unread (b.drop room) rest)

/-- The loops that receive the list of mechanisms, main.c:223-253, and the outcome, main.c:169-197, from where
no line feed was found in `buf`. Here `recv_amt` is unsigned, so an error counts as receiving 2^64 - 1 bytes:
`bufsz` goes down by one. Without a byte in the buffer the search for the line feed then leaves the buffer;
else it ends at once, and so does the loop, with `idx` (the former `bufsz`) beyond `bufsz`: `torn`. If the loop
goes on there was room for the whole piece, or there is no more room and the loop ends. -/
def recvLine (cap : Nat) : List Recv → Bytes → Got
  | [], buf => .fail (if cap ≤ buf.length then .code (-4) else .waiting)
  | .failed :: rest, buf =>
    if cap ≤ buf.length then .fail (.code (-4))
    else if buf = [] then .fail .undefined
    else .torn buf rest
  | .data b :: rest, buf =>
    if cap ≤ buf.length then .fail (.code (-4))
    else
      let room := cap - buf.length
      let got := b.take room
      if got = [] then .fail (.code (-2))
      else
        let idx := scan (buf ++ got) buf.length
        if idx = (buf ++ got).length then recvLine cap rest (buf ++ got)
        else .line (buf ++ got) idx (unread (b.drop room) rest)

/-- What the calls of `send` return from now on; all is taken if nothing is said. -/
abbrev Sends := List Sent

/-- The result of sending: what was sent, and what is left to return, or that the function returns -2. -/
structure Put where
  out : Bytes
  rest : Option Sends
deriving DecidableEq

/-- The loop that sends a message, main.c:121-134: `off` is where `slice` points to in `output`. After each call
it points to `output + sent`, not to `slice + sent`. -/
def sendLoop (output : Bytes) : Sends → Nat → Nat → Bytes → Put
  | [], off, outlen, out => ⟨out ++ (output.drop off).take outlen, some []⟩
  | s :: sends, off, outlen, out =>
    if outlen = 0 then ⟨out, some (s :: sends)⟩
    else
      match s with
      | .failed => ⟨out, none⟩
      | .took n =>
        let sent := min n outlen
        if sent = 0 then ⟨out, none⟩
        else sendLoop output sends sent (outlen - sent) (out ++ (output.drop off).take sent)

/-- A call of `send` whose result is checked with a signed variable, main.c:139-147. -/
def sendSigned (text : Bytes) : Sends → Put
  | [] => ⟨text, some []⟩
  | .failed :: _ => ⟨[], none⟩
  | .took n :: sends => if min n text.length = 0 then ⟨[], none⟩ else ⟨text.take n, some sends⟩

/-- A call of `send` whose result is checked with an unsigned variable, main.c:281-300: an error passes for
success. -/
def sendUnsigned (text : Bytes) : Sends → Put
  | [] => ⟨text, some []⟩
  | .failed :: sends => ⟨[], some sends⟩
  | .took n :: sends => if min n text.length = 0 then ⟨[], none⟩ else ⟨text.take n, some sends⟩

/-- `\r` before the line feed goes with it, main.c:84-86, 202-204 and 258-260. -/
def lineEnd (buf : Bytes) (idx : Nat) : Nat :=
  if 1 ≤ idx ∧ buf[idx - 1]? = some 13 then idx - 1 else idx

/-- The C string at the beginning of the buffer, after its end was written at `idx`. -/
def cString (buf : Bytes) (idx : Nat) : Bytes := (buf.take idx).takeWhile (· ≠ 0)

/-- What the outcome says, main.c:209-214: `buf` is the buffer up to `bufsz`, after the end of the line was
written. -/
def verdict (buf : Bytes) : Option Bool :=
  if buf[0]? = some 79 ∧ buf[1]? = some 75 then some true
  else if buf[0]? = some 69 ∧ buf[1]? = some 82 ∧ buf[2]? = some 82 then some false
  else none

/-- The end of `authenticate`, main.c:157-216. -/
def finish (cap : Nat) (recvs : List Recv) (buf : Bytes) : End :=
  let idx := scan buf 0
  match (if idx = buf.length then recvLine cap recvs buf else .line buf idx recvs) with
  | .fail e => e
  | .line buf idx _ => .outcome (verdict (buf.set (lineEnd buf idx) 0))
  | .torn buf _ => .outcome (verdict ((buf.set (lineEnd buf buf.length) 0).take (buf.length - 1)))

/-- `authenticate`, main.c:16-217. `junk` is what `fresh` holds before it is first written (main.c:24): the first
time around nothing is received and nothing is written to it, but it is read (main.c:107-109). If it is more than
`bufsz` then `memmove` is told to move nearly 2^64 bytes. `fuel` bounds the number of steps; `client` has enough of
it. -/
def authenticate (lib : Lib) (cap junk : Nat) :
    Nat → Bool → Bytes → lib.S → List Recv → Sends → Bytes → Run
  | 0, _, _, _, _, _, out => ⟨out, .waiting⟩
  | fuel + 1, first, buf, ses, recvs, sends, out =>
    match (if first then .line buf 0 recvs else recvMessage cap recvs buf 0) with
    | .fail e => ⟨out, e⟩
    | .torn _ _ => ⟨out, .undefined⟩
    | .line buf idx recvs =>
      let fresh := if first then junk else idx + 1
      let idx := lineEnd buf idx
      match lib.step64 ses (cString buf idx) with
      | (.error, _, _) => ⟨out, .code (-1)⟩
      | (rc, output, ses) =>
        if buf.length < fresh then ⟨out, .undefined⟩
        else
          let buf := (buf.set idx 0).drop fresh
          let output := output.getD []
          let put := sendLoop output sends 0 (min output.length cap) []
          match put.rest with
          | none => ⟨out ++ put.out, .code (-2)⟩
          | some sends =>
            let out := out ++ put.out
            let put := sendSigned (b!"\n") sends
            match put.rest with
            | none => ⟨out, .code (-2)⟩
            | some sends =>
              let out := out ++ put.out
              match rc with
              | .needsMore => authenticate lib cap junk fuel false buf ses recvs sends out
              | _ => ⟨out, finish cap recvs buf⟩

/-- The parts between spaces. -/
def parts : Bytes → List Bytes
  | [] => [[]]
  | c :: cs =>
    if c = 32 then [] :: parts cs
    else
      match parts cs with
      | [] => [[c]]
      | w :: ws => (c :: w) :: ws

/-- `strtok` with a space: the parts that are not empty. -/
def tokens (s : Bytes) : List Bytes := (parts s).filter (fun w => !w.isEmpty)

/-- The number of bytes still to come, and of calls of `recv`. -/
def toCome (recvs : List Recv) : Nat :=
  (recvs.map fun | .data b => b.length + 1 | .failed => 1).sum

/-- `client`, main.c:219-331. -/
def client (lib : Lib) (cap junk : Nat) (mechanism : Bytes) (recvs : List Recv) (sends : Sends) : Run :=
  match recvLine cap recvs [] with
  | .fail e => ⟨[], e⟩
  | got =>
    let (buf, bufsz, idx, recvs) : Bytes × Nat × Nat × List Recv :=
      match got with
      | .line buf idx recvs => (buf, buf.length, idx, recvs)
      | .torn buf recvs => (buf, buf.length - 1, buf.length, recvs)
      | .fail _ => ([], 0, 0, [])
    let fresh := idx + 1
    let idx := lineEnd buf idx
    let name := mechanism.take 30
    if (tokens (cString buf idx)).any (fun avail => name.isPrefixOf avail) then
      let put := sendUnsigned name sends
      match put.rest with
      | none => ⟨put.out, .code (-2)⟩
      | some sends =>
        let out := put.out
        let put := sendUnsigned (b!" ") sends
        match put.rest with
        | none => ⟨out, .code (-2)⟩
        | some sends =>
          let out := out ++ put.out
          match lib.start mechanism with
          | none => ⟨out, .code (-1)⟩
          | some ses =>
            if bufsz < fresh then ⟨out, .undefined⟩
            else authenticate lib cap junk (toCome recvs + 2) true (buf.drop fresh) ses recvs sends out
    else ⟨[], .code (-1)⟩

/-- The size of the buffer: `BUFSIZ` of the GNU C library. -/
def bufsiz : Nat := 8192

/-- `main` from the connection on, main.c:386. -/
def main (lib : Lib) (junk : Nat) (recvs : List Recv) (sends : Sends) : Run :=
  client lib bufsiz junk (b!"SCRAM-SHA-256") recvs sends

end Rsasl.GsaslClient
