/-
Callbacks of a SCRAM client and a SCRAM server that fit together.
-/
import Verif.Spec.ScramSession
import Verif.Spec.Env
import Verif.Model.Mech.ScramServer

namespace Rsasl

namespace Spec

open Scram

/-- What a request for channel binding data offers: the name of the binding type and, on the
server's side, the client's names. -/
def bindingOffer (name : Str) (authid authzid : Option Str) : (p : Property) → Option p.Value
  | .channelBindingName => some name
  | .authId => authid
  | .authzId => authzid
  | _ => none

/-- What a SCRAM client offers with its requests for secrets. -/
def saltOffer (salt : Bytes) (iterations : UInt32) : (p : Property) → Option p.Value
  | .salt => some salt
  | .iterations => some iterations
  | _ => none

/-- Someone supplies `data` as channel binding data of the named type. -/
def HasBinding (env : Env) (name : Str) (authid authzid : Option Str) (data : Bytes) : Prop :=
  env.chanbind name = some data ∨
  (env.chanbind name = none ∧ env.GivesAt (bindingOffer name authid authzid) .channelBindings data)

/-- No one has channel binding data of the named type. -/
def NoBinding (env : Env) (name : Str) (authid authzid : Option Str) : Prop :=
  env.chanbind name = none ∧ env.LacksAt (bindingOffer name authid authzid) .channelBindings

/-- The channel binding type and data a client has for each mode: the type the callback prefers,
else "tls-exporter", else "tls-unique". -/
def ClientBinding (env : Env) : CbSupport → CbFlag → Bytes → Prop
  | .clientNoSupport, flag, data => flag = .notSupported ∧ data = []
  | .serverNoSupport, flag, data => flag = .supportedNotUsed ∧ data = []
  | .supported, flag, data => ∃ name, flag = .used (Str.bytes name) ∧
      HasBinding env name none none data ∧
      (env.Gives .overrideCBType name ∨
       (env.Lacks .overrideCBType ∧ name = c!"tls-exporter") ∨
       (env.Lacks .overrideCBType ∧ NoBinding env (c!"tls-exporter") none none ∧
        name = c!"tls-unique"))

/-- RFC 5802 section 7, `cb-name`, as a string. -/
def BindingName (name : Str) : Prop :=
  name ≠ [] ∧ ∀ c ∈ name, ('a' ≤ c ∧ c ≤ 'z') ∨ ('A' ≤ c ∧ c ≤ 'Z') ∨ ('0' ≤ c ∧ c ≤ '9') ∨
    c = '.' ∨ c = '-'

/-- The server has the same data for what the client's flag says; with binding enabled on the
server it does not accept a client that thinks it is not. -/
def ServerBinding (env : Env) (canCb : Bool) (authid : Str) (authzid : Option Str) :
    CbFlag → Bytes → Prop
  | .notSupported, data => data = []
  | .supportedNotUsed, data => data = [] ∧ canCb = false
  | .used name, data => ∃ s, name = Str.bytes s ∧ BindingName s ∧
      HasBinding env s (some authid) authzid data

/-- `text` is the name as it is written in messages; the empty name can not be sent. -/
def WrittenAs (name text : Str) : Prop := name ≠ [] ∧ Escapes name text

/-- The same for an optional name. -/
def WrittenAsOpt : Option Str → Option Str → Prop
  | none, none => True
  | some name, some text => WrittenAs name text
  | _, _ => False

/-- The client's callback has keys for the salt and iteration count: cached ones, a salted
password, or a password; what comes later does not matter. -/
def ClientKeys (d : Digest) (env : Env) (salt : Bytes) (it : UInt32) (ck sk : Bytes) : Prop :=
  (env.GivesAt (saltOffer salt it) .scramCachedPassword (⟨ck, sk⟩ : CachedPassword) ∧
    ck.length = d.outLen ∧ sk.length = d.outLen) ∨
  (env.LacksAt (saltOffer salt it) .scramCachedPassword ∧
   ((∃ salted, salted ≠ [] ∧ env.GivesAt (saltOffer salt it) .saltedPassword salted ∧
      ck = clientKey d salted ∧ sk = serverKey d salted) ∨
    (env.LacksAt (saltOffer salt it) .saltedPassword ∧
     ∃ password, env.GivesAt (saltOffer salt it) .password password ∧
      ck = clientKey d (d.pbkdf2 password salt it) ∧
      sk = serverKey d (d.pbkdf2 password salt it))))

/-- A flag whose binding name, if any, can be sent. -/
def GoodFlag : CbFlag → Prop
  | .used name => ∃ s, name = Str.bytes s ∧ BindingName s
  | _ => True

/-- The callback was called with the context `ctx`, asked for something or to validate. -/
def Shown (ctx : Provider) : Event → Prop
  | .asked _ c => c = ctx
  | .validated c => c = ctx
  | _ => False

/-- Nothing that has to be escaped. -/
def PlainName (name : Str) : Prop := ',' ∉ name ∧ '=' ∉ name

end Spec

end Rsasl
