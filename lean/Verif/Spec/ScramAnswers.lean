/-
What a SCRAM client and a SCRAM server say to a message they do not like.
-/
import Verif.Spec.ScramSession

namespace Rsasl.Spec

open Scram

/-- Why a client that sent the nonce `cn` does not go on with the server-first message of these
fields: the first reason that applies. -/
inductive FirstFault (cn nonce salt64 count : Bytes) : SessionError → Prop where
  /-- not the client's nonce with something added -/
  | nonce (h : ∀ sn, sn ≠ [] → nonce ≠ cn ++ sn) :
      FirstFault cn nonce salt64 count (.mechanismError (.scramProtocol .invalidNonce))
  | text {sn : Bytes} (hn : nonce = cn ++ sn) (hs : sn ≠ []) (h : ∀ t, count ≠ Str.bytes t) :
      FirstFault cn nonce salt64 count (.mechanismError (.scramParse .badUtf8))
  /-- no number below 2^32 -/
  | format {sn : Bytes} (hn : nonce = cn ++ sn) (hs : sn ≠ []) {t : Str} (ht : count = Str.bytes t)
      (h : ∀ n : UInt32, ¬ Decimal t n.toNat) :
      FirstFault cn nonce salt64 count (.mechanismError (.scramProtocol .iterationCountFormat))
  | zero {sn : Bytes} (hn : nonce = cn ++ sn) (hs : sn ≠ []) {t : Str} (ht : count = Str.bytes t)
      (h : Decimal t 0) :
      FirstFault cn nonce salt64 count (.mechanismError (.scramProtocol .iterationCountZero))
  | salt {sn : Bytes} (hn : nonce = cn ++ sn) (hs : sn ≠ []) {t : Str} (ht : count = Str.bytes t)
      {n : UInt32} (h0 : n ≠ 0) (hd : Decimal t n.toNat) (h : ∀ s, salt64 ≠ Base64.encode s) :
      FirstFault cn nonce salt64 count (.mechanismError (.scramProtocol .base64Decode))

/-- Why a client that expects the signature `sig` does not finish with the server-final message
`input`. -/
inductive FinalFault (sig input : Bytes) : SessionError → Prop where
  | text {v : Bytes} (hi : input = b!"v=" ++ v) (h : ∀ b, v ≠ Base64.encode b) :
      FinalFault sig input (.mechanismError (.scramProtocol .base64Decode))
  | wrong {b : Bytes} (hi : input = b!"v=" ++ Base64.encode b) (h : b ≠ sig) :
      FinalFault sig input .mutualAuthenticationFailed

/-- What a server makes of a client-final message. -/
inductive Judgement where
  /-- fail with this error, say nothing -/
  | fail (e : SessionError)
  /-- finish, saying this, without validation -/
  | refuse (text : Bytes)
  /-- say this and validate -/
  | accept (text : Bytes)

/-- The auth message of an exchange with these fields, on the server's side. -/
def authOf (f : FinalInner) : Bytes :=
  authMessage (clientFirstBare f.username f.clientNonce)
    (serverFirst (f.clientNonce ++ f.serverNonce) f.salt f.iterations)
    (clientFinalBare (Base64.encode f.gs2Header) (f.clientNonce ++ f.serverNonce))

/-- `given`, extended by zeros to the hash's length, is the proof for `f`. -/
def Proves (d : Digest) (f : FinalInner) (given : Bytes) : Prop :=
  d.hash (List.zipWith (· ^^^ ·) (given ++ List.replicate (d.outLen - given.length) 0)
    (d.hmac f.storedKey (authOf f))) = f.storedKey

/-- What a server that kept `data` of the first message (nothing for a user it doesn't know) makes of
a client-final message of these fields. -/
inductive Judged (d : Digest) : (data : Option FinalInner) → (cb64 nonce proof64 : Bytes) →
    Judgement → Prop where
  | unknown {cb64 nonce proof64} : Judged d none cb64 nonce proof64 (.refuse (b!"e=unknown-user"))
  | cbText {f cb64 nonce proof64} (h : ∀ b, cb64 ≠ Base64.encode b) :
      Judged d (some f) cb64 nonce proof64 (.fail (.mechanismError (.scramProtocol .base64Decode)))
  | binding {f b nonce proof64} (h : b ≠ f.gs2Header) :
      Judged d (some f) (Base64.encode b) nonce proof64 (.refuse (b!"e=channel-bindings-dont-match"))
  | nonce {f nonce proof64} (h : nonce ≠ f.clientNonce ++ f.serverNonce) :
      Judged d (some f) (Base64.encode f.gs2Header) nonce proof64 (.refuse (b!"e=invalid-proof"))
  | long {f proof64} (h : d.outLen * 4 / 3 + 3 < proof64.length) :
      Judged d (some f) (Base64.encode f.gs2Header) (f.clientNonce ++ f.serverNonce) proof64
        (.refuse (b!"e=invalid-proof"))
  | proofText {f proof64} (h : proof64.length ≤ d.outLen * 4 / 3 + 3)
      (hb : ∀ b, b.length ≤ d.outLen → proof64 ≠ Base64.encode b) :
      Judged d (some f) (Base64.encode f.gs2Header) (f.clientNonce ++ f.serverNonce) proof64
        (.fail (.mechanismError (.scramProtocol .base64Decode)))
  | wrong {f given} (h : given.length ≤ d.outLen)
      (hl : (Base64.encode given).length ≤ d.outLen * 4 / 3 + 3) (hp : ¬ Proves d f given) :
      Judged d (some f) (Base64.encode f.gs2Header) (f.clientNonce ++ f.serverNonce)
        (Base64.encode given) (.refuse (b!"e=invalid-proof"))
  | right {f given} (h : given.length ≤ d.outLen)
      (hl : (Base64.encode given).length ≤ d.outLen * 4 / 3 + 3) (hp : Proves d f given) :
      Judged d (some f) (Base64.encode f.gs2Header) (f.clientNonce ++ f.serverNonce)
        (Base64.encode given) (.accept (serverFinal d f.serverKey (authOf f)))

end Rsasl.Spec
