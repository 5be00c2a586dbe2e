/-
Error types (`src/error.rs`, `src/callback.rs`, `src/validate.rs` and the error enums of the
mechanisms). Payloads that only describe a position or a source are dropped.
-/
import Verif.Model.Property

namespace Rsasl

/-- `core2::io::Error`, by kind. `other n` stands for every remaining kind. -/
inductive IoErr where
  | interrupted | writeZero | other (n : Nat)
deriving DecidableEq

/-- `PlainError`, src/mechanisms/plain/mechinfo.rs:36-55. -/
inductive PlainError where
  | containsNull | empty | badFormat | badAuthzid | badAuthcid | saslprep
deriving DecidableEq

/-- `ParseError` of OAUTHBEARER, src/mechanisms/oauthbearer/parser.rs:4-24. -/
inductive OParseError where
  | missingPart | missingEnd | missingToken | invalidGs2 | channelBindings | invalidKVPair
  | invalidUtf8
deriving DecidableEq

/-- `SaslNameError`, src/mechanisms/scram/parser.rs:7-21. -/
inductive SaslNameError where
  | empty | invalidUtf8 | invalidChar (b : UInt8) | invalidEscape
deriving DecidableEq

/-- `ParseError` of SCRAM, src/mechanisms/scram/parser.rs:158-180. -/
inductive SParseError where
  | badCBFlag | badCBName (b : UInt8) | badGS2Header | invalidAttribute (b : UInt8)
  | missingAttributes | unknownMandatoryExtensions | badUtf8 | badNonce
deriving DecidableEq

/-- `ServerErrorValue`, src/mechanisms/scram/parser.rs:495-508. -/
inductive ServerErrorValue where
  | invalidEncoding | extensionsNotSupported | invalidProof | channelBindingsDontMatch
  | serverDoesSupportChannelBinding | channelBindingNotSupported | unsupportedChannelBindingType
  | unknownUser | invalidUsernameEncoding | noResources | otherError
deriving DecidableEq

/-- `ProtocolError`, src/mechanisms/scram/client.rs:493-503. -/
inductive ProtocolError where
  | invalidNonce | iterationCountFormat | iterationCountZero | base64Decode
deriving DecidableEq

/-- Everything that can be inside `SessionError::MechanismError`. -/
inductive MechErr where
  | plain (e : PlainError)
  /-- `LoginError::Utf8`, src/mechanisms/login/server.rs:12-16 -/
  | loginUtf8
  /-- `ParseError`, src/mechanisms/external/server.rs:10-17 -/
  | externalUtf8
  /-- `ParseError`, src/mechanisms/anonymous/server.rs:10-17 -/
  | anonymousUtf8
  /-- `Error::Utf8`, src/mechanisms/xoauth2/client.rs:30-38 -/
  | xoauth2ClientUtf8
  /-- `Error::NotUtf8(USER, _)`, src/mechanisms/xoauth2/server.rs:29-37 -/
  | xoauth2User
  /-- `Error::NotUtf8(TOKN, _)` -/
  | xoauth2Token
  /-- `Error::InvalidFormat` -/
  | xoauth2Format
  /-- `Error::Parse`, src/mechanisms/oauthbearer/properties.rs:7-21 -/
  | oauthParse (e : OParseError)
  /-- `Error::Serde` -/
  | oauthSerde
  | saslName (e : SaslNameError)
  /-- `SCRAMError`, src/mechanisms/scram/client.rs:505-517 -/
  | scramProtocol (e : ProtocolError)
  | scramParse (e : SParseError)
  | scramServer (e : ServerErrorValue)
  /-- `ScramServerError`, src/mechanisms/scram/server.rs:48-55 -/
  | scramPasswordHashInvalid
  | scramChannelBindingsNotUsed
  /-- `Error` of GSSAPI, src/mechanisms/gssapi/properties.rs:7-19 -/
  | gss (n : Nat)
  | gssBadFinalToken
  | gssBadContext
  /-- a mechanism outside of the crate -/
  | custom (n : Nat)
deriving DecidableEq

/-- `CallbackError`, src/callback.rs:196-205. -/
inductive CallbackError where
  | noValue
  | noCallback (p : Property)
  | earlyReturn
deriving DecidableEq

/-- `ValidationError`, src/validate.rs:168-173. -/
inductive ValidationError where
  | missingRequiredProperty
  | boxed (n : Nat)
deriving DecidableEq

/-- `SessionError`, src/error.rs:40-103. -/
inductive SessionError where
  | io (e : IoErr)
  | base64
  | noSecurityLayer
  | inputDataRequired
  | mechanismDone
  | mechanismError (e : MechErr)
  | callbackError (e : CallbackError)
  | validationError (e : ValidationError)
  | boxed (n : Nat)
  | noValidate
  | mutualAuthenticationFailed
  | missingChannelBindingData (name : Str)
deriving DecidableEq

/-- How a modelled call ends. `panic` covers every Rust panic (slice index out of range,
`unwrap`, `panic!`). -/
inductive Outcome (α : Type) where
  | ok (a : α)
  | err (e : SessionError)
  | panic
deriving DecidableEq

end Rsasl
