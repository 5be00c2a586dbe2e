/-
The programs for testing against other implementations (`interop/src/bin/server.rs` and
`interop/src/bin/client.rs`).
-/
import Verif.Model.Link
import Verif.Model.Mechname

namespace Rsasl.Interop

/-- The environment variables `RSASL_CBNAME` and `RSASL_CBDATA`; `none` if one is not set (or not
Unicode). -/
structure Vars where
  cbname : Option Str := none
  cbdata : Option Str := none

/-- `var`, interop/src/bin/server.rs:27-29. -/
def noVar : CbProg := .ret (.error (.callbackError .noValue))

/-- `request.satisfy::<P>(v)?;` followed by `Ok(())`. -/
def answer (p : Property) (v : p.Value) : CbProg :=
  .satisfy p v fun
    | .error e => .ret (.error e)
    | .ok () => .ret (.ok ())

/-- The account of the server, interop/src/bin/server.rs:38-51. -/
def account : StoredPassword where
  iterations := 4096
  salt := [0xc0, 0x3d, 0x33, 0xfd, 0xce, 0x5d, 0xed, 0x2e, 0x2a, 0xeb, 0x8e, 0xbc, 0x3b, 0x3d, 0x62,
    0xb2]
  storedKey := [87, 125, 145, 236, 250, 131, 103, 74, 247, 123, 68, 218, 121, 173, 12, 23, 43, 85, 15,
    252, 200, 80, 44, 176, 45, 246, 33, 245, 143, 247, 0, 109]
  serverKey := [196, 31, 224, 204, 165, 244, 68, 118, 6, 197, 163, 187, 35, 70, 137, 4, 185, 243, 25,
    19, 31, 49, 253, 198, 239, 25, 226, 58, 253, 195, 184, 185]

/-- `EnvCallback::callback`, interop/src/bin/server.rs:21-56. -/
def callback (vars : Vars) (ctx : Provider) : CbProg :=
  .is .overrideCBType fun
    | true =>
      match vars.cbname with
      | none => noVar
      | some name => answer .overrideCBType name
    | false => .is .channelBindings fun
      | true =>
        match vars.cbdata with
        | none => noVar
        | some data => answer .channelBindings (Str.bytes data)
      | false => .is .scramStoredPassword fun
        | true =>
          if ctx.getRef .authId = some (c!"username") then answer .scramStoredPassword account
          else .ret (.ok ())
        | false => .ret (.ok ())

/-- `", "` between the numbers of a list. -/
def commas : List Bytes → Bytes
  | [] => []
  | [x] => x
  | x :: y :: rest => x ++ b!", " ++ commas (y :: rest)

/-- `Debug` of `Vec<u8>`. -/
def debugBytes (b : Bytes) : Bytes :=
  b!"[" ++ commas (b.map fun x => Str.bytes (Nat.toDigits 10 x.toNat)) ++ b!"]"

/-- `Display` of `InteropValidation`, interop/src/bin/server.rs:104-125. Validation values are byte
strings in the model: the value is what is displayed. -/
def display (authid : Str) (authzid : Option Str) (password : Option Bytes) : VVal :=
  b!"VALID authid=" ++ Str.bytes authid ++
    (match authzid with
    | some z => b!" authzid=" ++ Str.bytes z
    | none => []) ++
    (match password with
    | some p => b!" password=" ++ (match fromUtf8 p with
      | some s => Str.bytes s
      | none => debugBytes p)
    | none => [])

/-- The number of the type `InteropValidation`. -/
def interopValidation : Nat := 9

/-- `EnvCallback::validate`, interop/src/bin/server.rs:57-96. -/
def validateProg (name : Bytes) (ctx : Provider) : ValProg :=
  if name = b!"PLAIN" ∨ name = b!"LOGIN" then
    match ctx.getRef .authId with
    | none => .ret (.error .missingRequiredProperty)
    | some authid =>
      match ctx.getRef .password with
      | none => .ret (.error .missingRequiredProperty)
      | some password =>
        .finalize interopValidation (display authid (ctx.getRef .authzId) (some password))
          (.ret (.ok ()))
  else if (b!"SCRAM-").isPrefixOf name then
    match ctx.getRef .authId with
    | none => .ret (.error .missingRequiredProperty)
    | some authid =>
      .finalize interopValidation (display authid (ctx.getRef .authzId) none) (.ret (.ok ()))
  else .ret (.ok ())

/-- What a session of the server runs with. There is no channel binding callback. -/
def serverEnv (vars : Vars) (m : MechDesc) : Env where
  callback _ _ ctx := callback vars ctx
  validate _ sd ctx := validateProg sd.mech.name ctx
  chanbind _ := none
  vtag := interopValidation
  sd := ⟨m, .server⟩

/-- `char::is_whitespace` of `core` (Unicode `White_Space`). -/
def isWhitespace (c : Char) : Bool :=
  (9 ≤ c.toNat && c.toNat ≤ 13) || c.toNat == 0x20 || c.toNat == 0x85 || c.toNat == 0xA0 ||
    c.toNat == 0x1680 || (0x2000 ≤ c.toNat && c.toNat ≤ 0x200A) || c.toNat == 0x2028 ||
    c.toNat == 0x2029 || c.toNat == 0x202F || c.toNat == 0x205F || c.toNat == 0x3000

/-- `str::split(char::is_whitespace)`. -/
def splitWs : Str → List Str
  | [] => [[]]
  | c :: cs =>
    if isWhitespace c then [] :: splitWs cs
    else
      match splitWs cs with
      | [] => [[c]]
      | w :: ws => (c :: w) :: ws

/-- `str::split_whitespace`: the parts that are not empty. -/
def words (s : Str) : List Str := (splitWs s).filter (fun w => !w.isEmpty)

/-- What `BufRead::lines` gives for one line: the line without its end, or an error (such as for a
line that is not UTF-8). -/
abbrev Line := Option Str

/-- How a program ends. -/
inductive End where
  | ok | failed | panicked
deriving DecidableEq

/-- Everything written to the other side, and the end. -/
structure Run where
  out : Bytes
  res : End
deriving DecidableEq

/-- The loop of `handle_client`, interop/src/bin/server.rs:205-233, and what follows it, 235-247. The
lines are those the client will still send (and then disconnects). `buffer` is the variable of that
name, `out` what was written before. `errText` formats an error (`{:?}: {}`). Writes to the client
succeed. The outer writer of `step64` is a `Vec`, so the simplification of `Session.step64` applies
(`C73_whole`). -/
def serveLoop (m : Mech) (env : Env) (errText : SessionError → Bytes) :
    List Line → Session m.S → Option Bytes → Bytes → Bytes → Run
  | lines, ses, input, buffer, out =>
    let (r, ses) := ses.step64 m env ⟨input, []⟩
    match r.res with
    | .panic => ⟨out, .panicked⟩
    | .err e => ⟨out ++ (b!"ERR " ++ errText e ++ b!"\n"), .failed⟩
    | .ok state =>
      let buffer := buffer ++ r.out
      let out := if state.hasSentMessage then out ++ (buffer ++ b!"\n") else out
      let buffer := if state.hasSentMessage then [] else buffer
      if state.isRunning then
        match lines with
        | some line :: lines => serveLoop m env errText lines ses (some (Str.bytes line)) buffer out
        | _ => ⟨out, .failed⟩
      else
        match ses.validation.1 with
        | some v => ⟨out ++ (b!"OK " ++ v ++ b!"\n"), .ok⟩
        | none => ⟨out ++ b!"ERR NOTVALID\n", .ok⟩

/-- The list of mechanisms, interop/src/bin/server.rs:140-154. -/
def offerLine (names : List Bytes) : Bytes := (names.map (· ++ b!" ")).flatten ++ b!"\n"

/-- `handle_client`, interop/src/bin/server.rs:131-247. Only for the crate's mechanisms: with others it
fails here. -/
def handleClient (deps : Deps) (cfg : Config) (vars : Vars) (errText : SessionError → Bytes)
    (rng : Nat → Nat) (lines : List Line) : Run :=
  let out := offerLine (cfg.getAvailable.map (·.name))
  match lines with
  | some selected :: lines =>
    match words selected with
    | [] => ⟨out, .failed⟩
    | name :: parts =>
      match Mechname.parse (Str.bytes name) with
      | .error _ => ⟨out, .failed⟩
      | .ok mechanism =>
        match cfg.serverStart mechanism with
        | .panic => ⟨out, .panicked⟩
        | .err _ => ⟨out, .failed⟩
        | .ok (a, m) =>
          match a.startServer deps with
          | none => ⟨out, .failed⟩
          | some st =>
            let env := serverEnv vars m.desc
            if env.areWeFirst then serveLoop st.mech env errText lines (st.session rng) none [] out
            else
              match parts with
              | data :: _ =>
                serveLoop st.mech env errText lines (st.session rng) (some (Str.bytes data)) [] out
              | [] =>
                let out := out ++ b!"-\n"
                match lines with
                | some line :: lines =>
                  serveLoop st.mech env errText lines (st.session rng) (some (Str.bytes line)) [] out
                | _ => ⟨out, .failed⟩
  | _ => ⟨out, .failed⟩

/-- The configuration of `main`, interop/src/bin/server.rs:269-273, with the features of
interop/Cargo.toml; `enable_channel_binding` and `prefer` are the trait defaults. -/
def config : Config := { mechs := builtinMechs, enableCb := false, prefer := defaultPrefer }

/-- `str::trim`. -/
def trim (s : Str) : Str :=
  ((s.dropWhile isWhitespace).reverse.dropWhile isWhitespace).reverse

/-- What the client does with its two outputs: the connection and the terminal. -/
structure ClientRun where
  sent : Bytes
  printed : List Bytes
  /-- `none`: it waits for the next line -/
  res : Option End
deriving DecidableEq

/-- The loop of the client, interop/src/bin/client.rs:216-235. `lines` are the lines read so far (with
their ends; an empty one at the end of the stream), `none` a failed read. -/
def clientLoop (m : Mech) (env : Env) :
    List Line → Session m.S → Option Str → Bytes → List Bytes → ClientRun
  | lines, ses, input, sent, printed =>
    let (r, ses) := ses.step64 m env ⟨input.map (fun s => Str.bytes (trim s)), []⟩
    match r.res with
    | .panic => ⟨sent, printed, some .panicked⟩
    | .err _ => ⟨sent, printed, some .failed⟩
    | .ok state =>
      let printed := printed ++ [r.out]
      if state.isRunning then
        match lines with
        | some line :: lines => clientLoop m env lines ses (some line) sent printed
        | none :: _ => ⟨sent, printed, some .failed⟩
        | [] => ⟨sent, printed, none⟩
      else ⟨sent, printed, some .ok⟩

/-- The mechanism the client runs, interop/src/bin/client.rs:153-173: `mech` is the value of `RSASL_MECH`.
The configuration is made as the server's. `none` if the program ends with an error. -/
def clientMech (mech : Bytes) : Option (Auth × Mechanism) :=
  match Mechname.parse mech with
  | .error _ => none
  | .ok name =>
    match config.clientStart [name] with
    | .ok r => some r
    | _ => none

/-- `main` of the client from the chosen mechanism on, interop/src/bin/client.rs:193-238. -/
def clientTalk (st : Started) (env : Env) (rng : Nat → Nat) (lines : List Line) : ClientRun :=
  let name := env.sd.mech.name
  let sent := name ++ b!"\n"
  if env.areWeFirst then clientLoop st.mech env lines (st.session rng) none sent [name]
  else
    match lines with
    | some line :: lines => clientLoop st.mech env lines (st.session rng) (some line) sent [name, []]
    | none :: _ => ⟨sent, [name, []], some .failed⟩
    | [] => ⟨sent, [name, []], none⟩

end Rsasl.Interop
