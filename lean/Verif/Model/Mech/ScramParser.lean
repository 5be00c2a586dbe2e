/-
SCRAM names and messages (`src/mechanisms/scram/parser.rs`).

The parsers return an `Outcome`: `panic` where the code indexes out of range, and
`err (perr e)` for `ParseError` `e`, already wrapped the way every caller wraps it
(`map_err(SCRAMError::ParseError)?`).
-/
import Verif.Model.Session

namespace Rsasl

/-- `?` on results that may also panic. -/
def Outcome.bind {α β : Type} : Outcome α → (α → Outcome β) → Outcome β
  | .ok a, f => f a
  | .err e, _ => .err e
  | .panic, _ => .panic

instance : Monad Outcome where
  pure := .ok
  bind := Outcome.bind

namespace Scram

/-- `SCRAMError::ParseError(e).into()` -/
def perr (e : SParseError) : SessionError := .mechanismError (.scramParse e)

/-- `opt.ok_or(e)?` -/
def orErr {α : Type} (e : SParseError) : Option α → Outcome α
  | some a => .ok a
  | none => .err (perr e)

/-- `SaslEscapeState`, src/mechanisms/scram/parser.rs:29-37. -/
inductive EscState where
  | done
  | char (c : Char)
  | comma
  | comma1
  | equals
  | equals1
deriving DecidableEq

/-- `SaslEscapeState::escape`, src/mechanisms/scram/parser.rs:40-46. -/
def EscState.escape (c : Char) : EscState :=
  if c = ',' then .comma else if c = '=' then .equals else .char c

/-- `Iterator::next`, src/mechanisms/scram/parser.rs:52-76. -/
def EscState.next : EscState → Option Char × EscState
  | .done => (none, .done)
  | .char c => (some c, .done)
  | .comma => (some '=', .comma1)
  | .comma1 => (some '2', .char 'C')
  | .equals => (some '=', .equals1)
  | .equals1 => (some '3', .char 'D')

/-- `ExactSizeIterator::len`, src/mechanisms/scram/parser.rs:86-93, which `size_hint` (79-82) gives as
both bounds. -/
def EscState.len : EscState → Nat
  | .done => 0
  | .char _ => 1
  | .comma => 3
  | .equals => 3
  | .comma1 => 2
  | .equals1 => 2

/-- The iterator run to its end: `next` until it gives `None`. It stops at the latest after `fuel`
items; `flat_map` does not, and three are enough (C32_iterator). -/
def EscState.collect : Nat → EscState → Str
  | 0, _ => []
  | fuel + 1, s =>
    match s.next with
    | (none, _) => []
    | (some c, s') => c :: s'.collect fuel

/-- What `SaslEscapeState::escape` iterates over, src/mechanisms/scram/parser.rs:112. -/
def escapeChar (c : Char) : Str := (EscState.escape c).collect 3

/-- `SaslName::escape`, src/mechanisms/scram/parser.rs:103-117. -/
def escape (input : Str) : Except SaslNameError Str :=
  if input.isEmpty then .error .empty
  else if input.contains '\x00' then .error (.invalidChar 0)
  else if input.contains ',' || input.contains '=' then .ok (input.flatMap escapeChar)
  else .ok input

/-- Results of `SaslName::unescape`: it can also panic, and not come back at all. -/
inductive UnescapeRes where
  | ok (s : Str)
  | err (e : SaslNameError)
  | panic
  /-- still running after the given number of iterations -/
  | running
deriving DecidableEq

/-- The `while` loop of src/mechanisms/scram/parser.rs:138-149, at most `fuel` iterations. The
code leaves `input` where it was: `input = &input[bad..]` with `bad` the position of the `=`
just handled. -/
def unescapeLoop : Nat → Str → Bytes → UnescapeRes
  | 0, _, _ => .running
  | fuel + 1, out, input =>
    match input.findIdx? (· == 61) with
    | none => .ok out
    | some bad =>
      match fromUtf8 (input.take bad) with
      | none => .err .invalidUtf8
      | some good =>
        match input.drop (bad + 1) with
        | x :: y :: _ =>
          if [x, y] = b!"2C" then unescapeLoop fuel (out ++ good ++ [',']) (input.drop bad)
          else if [x, y] = b!"3D" then unescapeLoop fuel (out ++ good ++ ['=']) (input.drop bad)
          else .err .invalidEscape
        | _ => .panic

/-- `SaslName::unescape`, src/mechanisms/scram/parser.rs:123-155 (not called anywhere). -/
def unescape (fuel : Nat) (input : Bytes) : UnescapeRes :=
  if input.isEmpty then .err .empty
  else
    match input.find? (fun b => b == 0 || b == 44) with
    | some c => .err (.invalidChar c)
    | none =>
      match input.findIdx? (· == 61) with
      | some bad =>
        match fromUtf8 (input.take bad) with
        | none => .err .invalidUtf8
        | some good => unescapeLoop fuel good (input.drop bad)
      | none =>
        match fromUtf8 input with
        | none => .err .invalidUtf8
        | some s => .ok s

/-- `GS2CBindFlag`, src/mechanisms/scram/parser.rs:183-192. The name is kept as bytes (the code
makes it a `str` unchecked, after checking that it is ASCII). -/
inductive CbFlag where
  | supportedNotUsed
  | notSupported
  | used (name : Bytes)
deriving DecidableEq

/-- The bytes allowed in a channel binding name, src/mechanisms/scram/parser.rs:204. -/
def cbNameByte (b : UInt8) : Bool :=
  b == 46 || b == 45 || (48 ≤ b.toNat && b.toNat ≤ 57) || (65 ≤ b.toNat && b.toNat ≤ 90)
    || (97 ≤ b.toNat && b.toNat ≤ 122)

/-- `GS2CBindFlag::parse`, src/mechanisms/scram/parser.rs:194-216. -/
def CbFlag.parse (input : Bytes) : Outcome CbFlag :=
  match input with
  | [110] => .ok .notSupported
  | [121] => .ok .supportedNotUsed
  | 112 :: 61 :: b :: rest =>
    match (b :: rest).find? (fun b => !cbNameByte b) with
    | none => .ok (.used (b :: rest))
    | some bad => .err (perr (.badCBName bad))
  | _ => .err (perr .badCBFlag)

/-- `GS2CBindFlag::as_ioslices`, src/mechanisms/scram/parser.rs:218-224, concatenated. -/
def CbFlag.bytes : CbFlag → Bytes
  | .notSupported => b!"n"
  | .supportedNotUsed => b!"y"
  | .used name => b!"p=" ++ name

/-- `&next[0..2]` and `&next[2..]`: the slices panic if there are less than two bytes. -/
def attr : Bytes → Outcome (Bytes × Bytes)
  | a :: b :: rest => .ok ([a, b], rest)
  | _ => .panic

/-- `next[0]` -/
def firstByte : Bytes → Outcome UInt8
  | a :: _ => .ok a
  | [] => .panic

/-- The pattern `if &next[0..2] == key { &next[2..] } else { return Err(InvalidAttribute(next[0])) }`. -/
def expectAttr (key next : Bytes) : Outcome Bytes := do
  let (k, v) ← attr next
  if k = key then .ok v
  else do
    let b ← firstByte next
    .err (perr (.invalidAttribute b))

/-- The bytes allowed in a nonce, src/mechanisms/scram/parser.rs:280. -/
def nonceByte (b : UInt8) : Bool :=
  (0x21 ≤ b.toNat && b.toNat ≤ 0x2B) || (0x2D ≤ b.toNat && b.toNat ≤ 0x7E)

/-- `from_utf8(..).map_err(ParseError::BadUtf8)?` -/
def utf8 (b : Bytes) : Outcome Str := orErr .badUtf8 (fromUtf8 b)

/-- `partiter.next().ok_or(e)?`: the next part and the remaining ones. -/
def nextPart (e : SParseError) : List Bytes → Outcome (Bytes × List Bytes)
  | p :: ps => .ok (p, ps)
  | [] => .err (perr e)

/-- `ClientFirstMessage`, src/mechanisms/scram/parser.rs:228-233. -/
structure ClientFirst where
  cbflag : CbFlag
  authzid : Option Str
  username : Str
  nonce : Bytes
deriving DecidableEq

/-- The authzid part, src/mechanisms/scram/parser.rs:256-261: the first two bytes are cut off
without looking at them. -/
def parseAuthzid (part : Bytes) : Outcome (Option Str) :=
  if part.isEmpty then .ok none
  else do
    let (_, v) ← attr part
    let s ← utf8 v
    .ok (some s)

/-- `ClientFirstMessage::parse`, src/mechanisms/scram/parser.rs:250-290. -/
def ClientFirst.parse (input : Bytes) : Outcome ClientFirst := do
  let (first, parts) ← nextPart .badCBFlag (splitOn 44 input)
  let cbflag ← CbFlag.parse first
  let (az, parts) ← nextPart .badGS2Header parts
  let authzid ← parseAuthzid az
  let (next, parts) ← nextPart .missingAttributes parts
  let (key, _) ← attr next
  if key = b!"m=" then .err (perr .unknownMandatoryExtensions)
  else do
    let user ← expectAttr (b!"n=") next
    let username ← utf8 user
    let (next, _) ← nextPart .missingAttributes parts
    let nonce ← expectAttr (b!"r=") next
    if nonce.all nonceByte then .ok ⟨cbflag, authzid, username, nonce⟩
    else .err (perr .badNonce)

/-- `gs2_header_parts`, src/mechanisms/scram/parser.rs:293-301, concatenated. -/
def ClientFirst.gs2Parts (m : ClientFirst) : Bytes :=
  m.cbflag.bytes ++
    match m.authzid with
    | none => b!","
    | some a => b!",a=" ++ Str.bytes a

/-- `ClientFirstMessage::as_ioslices`, src/mechanisms/scram/parser.rs:305-318, concatenated. -/
def ClientFirst.bytes (m : ClientFirst) : Bytes :=
  m.gs2Parts ++ b!",n=" ++ Str.bytes m.username ++ b!",r=" ++ m.nonce

/-- `build_gs2_header_vec`, src/mechanisms/scram/parser.rs:321-339. -/
def ClientFirst.gs2Header (m : ClientFirst) : Bytes := m.gs2Parts ++ b!","

/-- `ServerFirst`, src/mechanisms/scram/parser.rs:343-352. -/
structure ServerFirst where
  nonce : Bytes
  serverNonce : Option Bytes
  salt : Bytes
  iterationCount : Bytes
deriving DecidableEq

/-- `ServerFirst::parse`, src/mechanisms/scram/parser.rs:369-410. -/
def ServerFirst.parse (input : Bytes) : Outcome ServerFirst := do
  let (next, parts) ← nextPart .missingAttributes (splitOn 44 input)
  if next.length < 2 then .err (perr .missingAttributes)
  else do
    let (key, _) ← attr next
    if key = b!"m=" then .err (perr .unknownMandatoryExtensions)
    else do
      let nonce ← expectAttr (b!"r=") next
      let (next, parts) ← nextPart .missingAttributes parts
      let salt ← expectAttr (b!"s=") next
      let (next, parts) ← nextPart .missingAttributes parts
      let iterationCount ← expectAttr (b!"i=") next
      match parts with
      | next :: _ => do
        let b ← firstByte next
        .err (perr (.invalidAttribute b))
      | [] => .ok ⟨nonce, none, salt, iterationCount⟩

/-- `ServerFirst::as_ioslices`, src/mechanisms/scram/parser.rs:412-422. -/
def ServerFirst.ioslices (m : ServerFirst) : List Bytes :=
  [b!"r=", m.nonce, (match m.serverNonce with | some n => n | none => []), b!",s=", m.salt,
    b!",i=", m.iterationCount]

/-- `ClientFinal`, src/mechanisms/scram/parser.rs:425-429. -/
structure ClientFinal where
  channelBinding : Bytes
  nonce : Bytes
  proof : Bytes
deriving DecidableEq

/-- The `loop` of src/mechanisms/scram/parser.rs:461-470: the proof and the parts after it. -/
def findProof : List Bytes → Outcome (Bytes × List Bytes)
  | [] => .err (perr .missingAttributes)
  | next :: parts => do
    let (key, v) ← attr next
    if key = b!"p=" then .ok (v, parts)
    else if key = b!"m=" then .err (perr .unknownMandatoryExtensions)
    else findProof parts

/-- `ClientFinal::parse`, src/mechanisms/scram/parser.rs:444-481. -/
def ClientFinal.parse (input : Bytes) : Outcome ClientFinal := do
  let (next, parts) ← nextPart .missingAttributes (splitOn 44 input)
  let channelBinding ← expectAttr (b!"c=") next
  let (next, parts) ← nextPart .missingAttributes parts
  let nonce ← expectAttr (b!"r=") next
  let (proof, parts) ← findProof parts
  match parts with
  | next :: _ => do
    let b ← firstByte next
    .err (perr (.invalidAttribute b))
  | [] => .ok ⟨channelBinding, nonce, proof⟩

/-- `ClientFinal::to_ioslices`, src/mechanisms/scram/parser.rs:483-492. -/
def ClientFinal.ioslices (m : ClientFinal) : List Bytes :=
  [b!"c=", m.channelBinding, b!",r=", m.nonce, b!",p=", m.proof]

end Scram

/-- `ServerErrorValue::as_bytes`, src/mechanisms/scram/parser.rs:510-524. -/
def ServerErrorValue.bytes : ServerErrorValue → Bytes
  | .invalidEncoding => b!"invalid-encoding"
  | .extensionsNotSupported => b!"extensions-not-supported"
  | .invalidProof => b!"invalid-proof"
  | .channelBindingsDontMatch => b!"channel-bindings-dont-match"
  | .serverDoesSupportChannelBinding => b!"server-does-support-channel-binding"
  | .channelBindingNotSupported => b!"channel-binding-not-supported"
  | .unsupportedChannelBindingType => b!"unsupported-channel-binding-type"
  | .unknownUser => b!"unknown-user"
  | .invalidUsernameEncoding => b!"invalid-username-encoding"
  | .noResources => b!"no-resources"
  | .otherError => b!"other-error"

namespace Scram

/-- The `match` of src/mechanisms/scram/parser.rs:563-575. -/
def parseErrorValue (b : Bytes) : ServerErrorValue :=
  if b = b!"invalid-encoding" then .invalidEncoding
  else if b = b!"extensions-not-supported" then .extensionsNotSupported
  else if b = b!"invalid-proof" then .invalidProof
  else if b = b!"channel-bindings-dont-match" then .channelBindingsDontMatch
  else if b = b!"server-does-support-channel-binding" then .serverDoesSupportChannelBinding
  else if b = b!"channel-binding-not-supported" then .channelBindingNotSupported
  else if b = b!"unsupported-channel-binding-type" then .unsupportedChannelBindingType
  else if b = b!"unknown-user" then .unknownUser
  else if b = b!"invalid-username-encoding" then .invalidUsernameEncoding
  else if b = b!"no-resources" then .noResources
  else .otherError

/-- `ServerFinal`, src/mechanisms/scram/parser.rs:548-551. -/
inductive ServerFinal where
  | verifier (v : Bytes)
  | error (e : ServerErrorValue)
deriving DecidableEq

/-- `ServerFinal::parse`, src/mechanisms/scram/parser.rs:554-580. -/
def ServerFinal.parse (input : Bytes) : Outcome ServerFinal := do
  let (key, v) ← attr input
  if key = b!"v=" then .ok (.verifier v)
  else if key = b!"e=" then .ok (.error (parseErrorValue v))
  else do
    let b ← firstByte input
    .err (perr (.invalidAttribute b))

/-- `ServerFinal::to_ioslices`, src/mechanisms/scram/parser.rs:582-587. -/
def ServerFinal.ioslices : ServerFinal → List Bytes
  | .verifier v => [b!"v=", v]
  | .error e => [b!"e=", e.bytes]

end Scram

end Rsasl
