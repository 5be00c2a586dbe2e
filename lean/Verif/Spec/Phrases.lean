/-
Messages a client puts together from fixed text and from what its callback says.
-/
import Verif.Spec.Settled

namespace Rsasl.Spec

/-- A part of a message: a fixed text, or what the callback is asked for. Some answers meet with an objection;
the others are written as `text`. -/
inductive Phrase where
  | say (b : Bytes)
  | ask (p : Property) (needed : Bool) (objection : p.Value → Option SessionError) (text : p.Value → Bytes)

/-- What is written for a request: the first answer, unless there is an objection to it. What the callback does
afterwards can't take it back. -/
def said (p : Property) (objection : p.Value → Option SessionError) (text : p.Value → Bytes) (prog : CbProg) : Bytes :=
  match beginning p 0 prog with
  | .returns _ _ => []
  | .answers _ v _ => if objection v = none then text v else []

/-- How writing a message ends: with success or with an error, with these bytes written, and this having happened. -/
structure Composed where
  result : Except SessionError Unit
  out : Bytes
  log : List Event

/-- The phrases are written one after the other up to the first failure; `asks log` is what the callback does when
it is asked after the history `log`. A request that comes to nothing is a failure if the answer is needed. -/
def compose (asks : List Event → CbProg) : List Event → List Phrase → Composed
  | _, [] => ⟨.ok (), [], []⟩
  | log, .say b :: rest =>
    let t := compose asks log rest
    ⟨t.result, b ++ t.out, t.log⟩
  | log, .ask p needed objection text :: rest =>
    let b := said p objection text (asks log)
    let new := settledLog p objection .empty (asks log)
    let t := compose asks (log ++ new) rest
    match settled p objection (asks log) with
    | .error e => ⟨.error e, b, new⟩
    | .ok none => if needed then ⟨.error (.callbackError (.noCallback p)), b, new⟩ else ⟨t.result, b ++ t.out, new ++ t.log⟩
    | .ok (some _) => ⟨t.result, b ++ t.out, new ++ t.log⟩

/-- No objection. -/
def fine {α : Type} (_ : α) : Option SessionError := none

/-- What PLAIN has against a name or a password. -/
def objectionNul (s : Str) : Option SessionError :=
  if '\x00' ∈ s then some (.mechanismError (.plain .containsNull)) else none
def objectionName (s : Str) : Option SessionError :=
  if s = [] then some (.mechanismError (.plain .empty)) else objectionNul s
def objectionPassword (b : Bytes) : Option SessionError :=
  if b = [] then some (.mechanismError (.plain .empty))
  else if 0 ∈ b then some (.mechanismError (.plain .containsNull)) else none

/-- RFC 4616 -/
def plainPhrases : List Phrase :=
  [.ask .authzId false objectionNul Str.bytes, .say [0], .ask .authId true objectionName Str.bytes, .say [0],
    .ask .password true objectionPassword id]

/-- draft-murchison-sasl-login, first and second message. -/
def loginName : List Phrase := [.ask .authId true fine Str.bytes]
def loginPassword : List Phrase := [.ask .password true fine id]

/-- RFC 4422, Appendix A -/
def externalPhrases : List Phrase := [.ask .authzId false fine Str.bytes]

/-- RFC 4505 -/
def anonymousPhrases : List Phrase := [.ask .anonymousToken false fine Str.bytes]

/-- Google's description of XOAUTH2 -/
def xoauth2Phrases : List Phrase :=
  [.ask .authId true fine fun s => b!"user=" ++ Str.bytes s ++ b!"\x01auth=Bearer ",
    .ask .oauthBearerToken true fine fun s => Str.bytes s ++ b!"\x01\x01"]

/-- RFC 7628, 3.1 -/
def oauthbearerPhrases : List Phrase :=
  [.say (b!"n,"), .ask .authzId false fine fun s => b!"a=" ++ Str.bytes s, .say (b!","),
    .ask .oauthBearerKV false fine fun kvs => kvs.flatMap fun kv => b!"\x01" ++ Str.bytes kv.1 ++ b!"=" ++ Str.bytes kv.2,
    .ask .oauthBearerToken true fine fun s => b!"\x01auth=Bearer " ++ Str.bytes s ++ b!"\x01\x01"]

end Rsasl.Spec
