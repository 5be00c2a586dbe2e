/-
How the steps of SCRAM end, told by the callback's program alone.
-/
import Verif.Spec.Phrases
import Verif.Spec.ScramSession

namespace Rsasl.Spec

open Scram

/-- What the callback does when it is asked after a history, with a context. -/
abbrev Asks := List Event → Provider → CbProg

/-- The first answer to a request, the only one the mechanism gets to see. -/
def firstAnswer (p : Property) (prog : CbProg) : Option p.Value :=
  match beginning p 0 prog with
  | .returns _ _ => none
  | .answers _ v _ => some v

/-- RFC 5802 section 5.1 -/
def writtenName (s : Str) : Str :=
  s.flatMap fun c => if c = ',' then c!"=2C" else if c = '=' then c!"=3D" else [c]

/-- What SCRAM has against a name. -/
def objectionSaslName (s : Str) : Option SessionError :=
  if s = [] then some (.mechanismError (.saslName .empty))
  else if '\x00' ∈ s then some (.mechanismError (.saslName (.invalidChar 0))) else none

/-! ### Channel bindings -/

/-- What comes of looking for the data of a channel binding. -/
structure Bound where
  /-- what the mechanism was given, even if nothing comes of it -/
  given : Option Bytes
  result : Except SessionError (Option Bytes)
  log : List Event

/-- The protocol's data, or else what the callback says. -/
def bindingAsk (chanbind : Str → Option Bytes) (asks : Asks) (ctx : Provider) (log : List Event) (name : Str) : Bound :=
  match chanbind name with
  | some data => ⟨some data, .ok (some data), []⟩
  | none =>
    let ctx' := Provider.and (.this ⟨.channelBindingName, name⟩) ctx
    ⟨firstAnswer .channelBindings (asks log ctx'), settled .channelBindings fine (asks log ctx'),
      settledLog .channelBindings fine ctx' (asks log ctx')⟩

/-- The data is needed. -/
def bindingError (name : Str) : Except SessionError (Option Bytes) → Option SessionError
  | .error e => some e
  | .ok none => some (.missingChannelBindingData name)
  | .ok (some _) => none

/-- How a client begins its message in the three modes, the data it binds to, and what happened meanwhile. A type
named by the callback comes before tls-exporter and that before tls-unique. The names of types for which
there was an answer of any kind pile up. -/
def announced (chanbind : Str → Option Bytes) (asks : Asks) (log : List Event) :
    CbSupport → Except SessionError (Bytes × Bytes) × List Event
  | .clientNoSupport => (.ok (b!"n", []), [])
  | .serverNoSupport => (.ok (b!"y", []), [])
  | .supported =>
    let prog := asks log .empty
    let l₁ := settledLog .overrideCBType fine .empty prog
    let start := b!"p=" ++ ((firstAnswer .overrideCBType prog).map Str.bytes).getD []
    match settled .overrideCBType fine prog with
    | .error e => (.error e, l₁)
    | .ok (some name) =>
      let b := bindingAsk chanbind asks .empty (log ++ l₁) name
      match bindingError name b.result with
      | some e => (.error e, l₁ ++ b.log)
      | none => (.ok (start, b.given.getD []), l₁ ++ b.log)
    | .ok none =>
      let x := bindingAsk chanbind asks .empty (log ++ l₁) (c!"tls-exporter")
      let start := if x.given = none then start else start ++ b!"tls-exporter"
      match x.result with
      | .error e => (.error e, l₁ ++ x.log)
      | .ok (some _) => (.ok (start, x.given.getD []), l₁ ++ x.log)
      | .ok none =>
        let u := bindingAsk chanbind asks .empty (log ++ l₁ ++ x.log) (c!"tls-unique")
        match bindingError (c!"tls-unique") u.result with
        | some e => (.error e, l₁ ++ x.log ++ u.log)
        | none => (.ok (start ++ b!"tls-unique", u.given.getD []), l₁ ++ x.log ++ u.log)

/-! ### The client's messages -/

/-- What a client's first message is made of. -/
structure OpeningParts where
  /-- the gs2 header -/
  header : Bytes
  /-- channel binding data -/
  data : Bytes
  name : Str

/-- A name for the gs2 header. If SCRAM objects to it and the callback hides that, its key remains. -/
def authzidText : Option Str → Bytes
  | none => []
  | some z => b!"a=" ++ if objectionSaslName z = none then Str.bytes (writtenName z) else []

/-- The channel binding, the authorization name, the user name. -/
def opening (chanbind : Str → Option Bytes) (asks : Asks) (log : List Event) (plus : CbSupport) :
    Except SessionError OpeningParts × List Event :=
  match announced chanbind asks log plus with
  | (.error e, l₁) => (.error e, l₁)
  | (.ok (start, data), l₁) =>
    let l₂ := l₁ ++ settledLog .authzId objectionSaslName .empty (asks (log ++ l₁) .empty)
    match settled .authzId objectionSaslName (asks (log ++ l₁) .empty) with
    | .error e => (.error e, l₂)
    | .ok _ =>
      let header := start ++ b!"," ++ authzidText (firstAnswer .authzId (asks (log ++ l₁) .empty)) ++ b!","
      let l₃ := l₂ ++ settledLog .authId objectionSaslName .empty (asks (log ++ l₂) .empty)
      match settledNeed .authId objectionSaslName (asks (log ++ l₂) .empty) with
      | .error e => (.error e, l₃)
      | .ok name => (.ok ⟨header, data, name⟩, l₃)

/-- How a client comes by its keys. -/
inductive Keys where
  /-- cached keys of the wrong length -/
  | panics
  | fails (e : SessionError)
  | are (clientKey serverKey : Bytes)

/-- SCRAM has no use for an empty salted password, and says so as if there was none. -/
def objectionSalted (b : Bytes) : Option SessionError :=
  if b = [] then some (.callbackError .noValue) else none

/-- The keys are asked for as such, then the salted password, then the password. -/
def gathered (d : Digest) (asks : Asks) (log : List Event) (salt : Bytes) (it : UInt32) : Keys × List Event :=
  let ctx : Provider := .chain [⟨.salt, salt⟩, ⟨.iterations, it⟩]
  let usable (c : CachedPassword) : Prop := c.clientKey.length = d.outLen ∧ c.serverKey.length = d.outLen
  match beginning .scramCachedPassword 0 (asks log ctx) with
  | .answers n c k =>
    if ¬ usable c then
      (.panics, .asked .scramCachedPassword ctx :: List.replicate n (.evaluated .scramCachedPassword) ++
        [.answered .scramCachedPassword c])
    else rest (asks log ctx) ctx
  | .returns _ _ => rest (asks log ctx) ctx
where
  /-- if the cached keys, if any, are of the right length -/
  rest (prog : CbProg) (ctx : Provider) : Keys × List Event :=
    let l₁ := settledLog .scramCachedPassword fine ctx prog
    match settled .scramCachedPassword fine prog with
    | .error e => (.fails e, l₁)
    | .ok (some c) => (.are c.clientKey c.serverKey, l₁)
    | .ok none =>
      let l₂ := l₁ ++ settledLog .saltedPassword objectionSalted ctx (asks (log ++ l₁) ctx)
      match settled .saltedPassword objectionSalted (asks (log ++ l₁) ctx) with
      | .error e => (.fails e, l₂)
      | .ok (some s) => (.are (clientKey d s) (serverKey d s), l₂)
      | .ok none =>
        let l₃ := l₂ ++ settledLog .password fine ctx (asks (log ++ l₂) ctx)
        match settledNeed .password fine (asks (log ++ l₂) ctx) with
        | .error e => (.fails e, l₃)
        | .ok p => (.are (clientKey d (d.pbkdf2 p salt it)) (serverKey d (d.pbkdf2 p salt it)), l₃)

/-! ### The server's first message -/

/-- What SCRAM has against a stored password. -/
def objectionStored (d : Digest) (p : StoredPassword) : Option SessionError :=
  if p.storedKey.length = d.outLen ∧ p.serverKey.length = d.outLen then none
  else some (.mechanismError .scramPasswordHashInvalid)

/-- The names in the client's message, for the callback. -/
def namesOffered (user : Str) (authzid : Option Str) : Provider :=
  .chain (match authzid with
    | none => [⟨.authId, user⟩]
    | some z => [⟨.authId, user⟩, ⟨.authzId, z⟩])

/-- A server's channel binding data for the flag of a client's message. -/
def serverBinding (chanbind : Str → Option Bytes) (asks : Asks) (ctx : Provider) (log : List Event) (canBind : Bool) :
    CbFlag → Except SessionError Bytes × List Event
  | .notSupported => (.ok [], [])
  | .supportedNotUsed => (if canBind then .error (.mechanismError .scramChannelBindingsNotUsed) else .ok [], [])
  | .used name =>
    let b := bindingAsk chanbind asks ctx log (name.map fun x => Char.ofNat x.toNat)
    (match bindingError (name.map fun x => Char.ofNat x.toNat) b.result with
      | some e => .error e
      | none => .ok (b.given.getD []), b.log)

/-- A server's data for a client's message: its channel binding data, and the password it has, if any. -/
def lookedUp (d : Digest) (chanbind : Str → Option Bytes) (asks : Asks) (log : List Event) (canBind : Bool) (flag : CbFlag)
    (user : Str) (authzid : Option Str) : Except SessionError (Bytes × Option StoredPassword) × List Event :=
  let ctx := namesOffered user authzid
  match serverBinding chanbind asks ctx log canBind flag with
  | (.error e, l₁) => (.error e, l₁)
  | (.ok data, l₁) =>
    let l₂ := l₁ ++ settledLog .scramStoredPassword (objectionStored d) ctx (asks (log ++ l₁) ctx)
    match settled .scramStoredPassword (objectionStored d) (asks (log ++ l₁) ctx) with
    | .error e => (.error e, l₂)
    | .ok stored => (.ok (data, stored), l₂)

end Rsasl.Spec
