/-
Two programs that talk in lines.
-/
import Verif.Spec.Interop
import Verif.Spec.ScramSession
import Verif.Model.InteropTests

namespace Rsasl.Spec

open Interop (Line Run TestRun)

/-- A text that is read as one line, unchanged: `BufRead::lines` ends lines at `\n` and removes a `\r`
before it. -/
def ReadAsLine (l : Str) : Prop := '\n' ∉ l ∧ l.getLast? ≠ some '\r'

/-- The bytes of these lines. -/
def sent (ls : List Str) : Bytes := asLines (ls.map Str.bytes)

/-- What two programs have said to each other, line by line: each line was written by a program that
had read only what the other one had said before. A program is given by all it writes when it reads
some lines and then the end of the stream; what it has written before it waits for a line is a
beginning of that. -/
inductive Dialogue (server client : List Line → Bytes) : List Str → List Str → Prop where
  | start : Dialogue server client [] []
  | server {ss cs l} (h : Dialogue server client ss cs) (hl : ReadAsLine l)
      (hs : sent (ss ++ [l]) <+: server (cs.map some)) : Dialogue server client (ss ++ [l]) cs
  | client {ss cs l} (h : Dialogue server client ss cs) (hl : ReadAsLine l)
      (hs : sent (cs ++ [l]) <+: client (ss.map some)) : Dialogue server client ss (cs ++ [l])

/-- Neither program has more to say. -/
def Stuck (server client : List Line → Bytes) (ss cs : List Str) : Prop :=
  ∀ ss' cs', Dialogue server client ss' cs' → ss <+: ss' → cs <+: cs' → ss' = ss ∧ cs' = cs

/-- Server and test talk until both have ended, the server without an error, and the test with the line
`outcome`. All was said and read. -/
structure Concludes (server : List Line → Run) (test : List Line → TestRun) (ss cs : List Str)
    (outcome : Str) : Prop where
  dialogue : Dialogue (fun ls => (server ls).out) (fun ls => (test ls).sent) ss cs
  server : server (cs.map some) = ⟨sent ss, .ok⟩
  test : test (ss.map some) = ⟨sent cs, .outcome outcome⟩

/-- The line the test answers with when its session has given this reply: the message, or `-` if there
is none. -/
def testAnswer (r : Reply State) : Bytes :=
  if r.res = .ok (.finished .no) then b!"-" else Base64.encode r.out

/-- Its first line: the name, and the message if its session goes first and has one. -/
def testHello (name : Bytes) : Option (Reply State) → Bytes
  | none => name
  | some r => if r.res = .ok (.finished .no) then name else name ++ b!" " ++ Base64.encode r.out

/-- The keys of the interop server's account are those of this password. -/
def AccountFits (d : Scram.Digest) (password : Str) : Prop :=
  Interop.account.storedKey = d.hash (clientKey d
    (d.pbkdf2 (Str.bytes password) Interop.account.salt Interop.account.iterations)) ∧
  Interop.account.serverKey =
    serverKey d (d.pbkdf2 (Str.bytes password) Interop.account.salt Interop.account.iterations)

/-- The variable a property is taken from by the interop client. -/
def clientVariable (vars : Interop.ClientVars) : (p : Property) → Option p.Value
  | .authId => vars.authid
  | .password => vars.password.map Str.bytes
  | .authzId => vars.authzid
  | .overrideCBType => vars.cbname
  | .channelBindings => vars.cbdata.map Str.bytes
  | .gssService => vars.service
  | .hostname => vars.host
  | _ => none

end Rsasl.Spec
