/-
Which errors a step of each mechanism can end with. C67 shows that there are no others, C94 that each
of them occurs.
-/
import Verif.Model.Link
import Verif.Spec.Errs
import Verif.Spec.ScramExchange
import Verif.Spec.ScramWrong

namespace Rsasl

/-- The user's callback returns only errors in `E`, besides those that `Request` and the library
define for it: the early return of `satisfy` and `NoValue` (src/callback.rs:196-205). -/
def Env.ErrsIn (env : Env) (E : SessionError → Prop) : Prop :=
  env.Errs fun e => E e ∨ e = earlyReturn ∨ e = .callbackError .noValue

/-- `MechanismErrorKind`, src/error.rs:12-24. -/
inductive MechErrKind where
  | parse | protocol | outcome
deriving DecidableEq

/-- `MechanismError::kind` of the errors: src/mechanisms/plain/mechinfo.rs:57-61,
login/server.rs:18-22, external/server.rs:13-17, anonymous/server.rs:13-17, xoauth2/client.rs:39-43,
xoauth2/server.rs:38-42, oauthbearer/properties.rs:23-27, scram/parser.rs:23-27,
scram/client.rs:519-527, scram/server.rs:56-60, gssapi/properties.rs:21-25. Errors of other crates
have some kind; it is left out. -/
def MechErr.kind : MechErr → Option MechErrKind
  | .plain _ | .loginUtf8 | .externalUtf8 | .anonymousUtf8 | .xoauth2ClientUtf8 | .xoauth2User
  | .xoauth2Token | .xoauth2Format | .oauthParse _ | .oauthSerde | .saslName _ => some .parse
  | .scramProtocol _ => some .protocol
  | .scramParse _ => some .parse
  | .scramServer _ => some .outcome
  | .scramPasswordHashInvalid | .scramChannelBindingsNotUsed => some .parse
  | .gss _ | .gssBadFinalToken | .gssBadContext => some .protocol
  | .custom _ => none

/-- `SessionError::is_mechanism_error`, src/error.rs:111-114. -/
def SessionError.isMechanismError : SessionError → Bool
  | .mechanismError _ => true
  | _ => false

/-- `SessionError::is_missing_prop`, src/error.rs:116-119. -/
def SessionError.isMissingProp : SessionError → Bool
  | .callbackError (.noCallback _) => true
  | _ => false

namespace Spec

/-- The property without which the mechanism cannot go on. -/
def isMissing (ps : List Property) : SessionError → Prop
  | .callbackError (.noCallback p) => p ∈ ps
  | _ => False

/-- An error of the writer. -/
def isIo : SessionError → Prop
  | .io _ => True
  | _ => False

/-- An error of the writer that `write_all` does not put up with. -/
def isWriteAll : SessionError → Prop
  | .io e => e ≠ .interrupted
  | _ => False

/-- Called without input where some was required. -/
def isInputless (input : Option Bytes) (e : SessionError) : Prop :=
  e = .inputDataRequired ∧ input = none

/-- The user's `validate` refused. -/
def isRefused : SessionError → Prop
  | .validationError _ => True
  | _ => False

/-- An error of the mechanism itself, of the given sort. -/
def isMech (sort : MechErr → Prop) : SessionError → Prop
  | .mechanismError e => sort e
  | _ => False

/-- The mechanism errors of a SCRAM client. -/
def scramClientSort : MechErr → Prop
  | .scramParse e => e = .missingAttributes ∨ e = .unknownMandatoryExtensions ∨ e = .badUtf8 ∨
      ∃ b, e = .invalidAttribute b
  | .scramProtocol _ => True
  | .scramServer _ => True
  | .saslName e => e = .empty ∨ e = .invalidChar 0
  | _ => False

/-- The mechanism errors of a SCRAM server. A comma ends a field. -/
def scramServerSort (canCb : Bool) : MechErr → Prop
  | .scramParse (.badCBName b) => ¬ CbNameByte b ∧ b ≠ 44
  | .scramParse (.invalidAttribute b) => b ≠ 44
  | .scramParse _ => True
  | .scramProtocol e => e = .base64Decode
  | .scramPasswordHashInvalid => True
  | .scramChannelBindingsNotUsed => canCb = true
  | _ => False

/-- The sorts of mechanism errors of GSSAPI. -/
def gssSort : MechErr → Prop
  | .gss _ | .gssBadFinalToken | .gssBadContext => True
  | _ => False

/-- Errors of a step of a SCRAM client. -/
def scramClientErrors (input : Option Bytes) (e : SessionError) : Prop :=
  isIo e ∨ isMissing [.authId, .password] e ∨ isInputless input e ∨ isMech scramClientSort e ∨
    e = .mutualAuthenticationFailed

/-- Errors of a step of a SCRAM server, which offers channel bindings or not. -/
def scramServerErrors (input : Option Bytes) (canCb : Bool) (e : SessionError) : Prop :=
  isIo e ∨ isInputless input e ∨ isRefused e ∨ isMech (scramServerSort canCb) e ∨
    (∃ name, e = .missingChannelBindingData name ∧ BindingName name) ∨ e = .mechanismDone

/-- Errors of a step of a client, called with this input. -/
def clientErrors (input : Option Bytes) (a : Auth) (e : SessionError) : Prop :=
  match a with
  | .plain => isWriteAll e ∨ isMissing [.authId, .password] e ∨
      isMech (fun m => m = .plain .containsNull ∨ m = .plain .empty) e
  | .login => isWriteAll e ∨ isMissing [.authId, .password] e ∨ e = .mechanismDone
  | .external | .anonymous => isWriteAll e
  | .xoauth2 => isIo e ∨ isMissing [.authId, .oauthBearerToken, .xoauth2Error] e ∨
      e = .callbackError .noValue ∨ isMech (fun m => m = .xoauth2ClientUtf8) e ∨ e = .mechanismDone
  | .oauthbearer => isIo e ∨ isMissing [.oauthBearerToken, .oauthBearerErrored] e ∨
      e = .callbackError .noValue ∨ isMech (fun m => m = .oauthSerde) e ∨ e = .mechanismDone
  | .gssapi => isWriteAll e ∨ isMissing [.gssService, .hostname] e ∨ isMech gssSort e ∨
      isInputless input e ∨ e = .mechanismDone
  | .scramClient _ _ => scramClientErrors input e
  | .scramClientPlus _ => scramClientErrors input e ∨ ∃ name, e = .missingChannelBindingData name
  | _ => False

/-- Errors of a step of a server, called with this input. -/
def serverErrors (input : Option Bytes) (a : Auth) (e : SessionError) : Prop :=
  match a with
  | .plain => isInputless input e ∨ isRefused e ∨
      isMech (fun m => ∃ x, m = .plain x ∧ x ≠ .containsNull) e
  | .login => isWriteAll e ∨ isInputless input e ∨ isRefused e ∨ isMech (fun m => m = .loginUtf8) e ∨
      e = .mechanismDone
  | .external => isRefused e ∨ isMech (fun m => m = .externalUtf8) e
  | .anonymous => isRefused e ∨ isMech (fun m => m = .anonymousUtf8) e
  | .xoauth2 => isWriteAll e ∨ isInputless input e ∨ isRefused e ∨ isMissing [.xoauth2Validate] e ∨
      isMech (fun m => m = .xoauth2Format ∨ m = .xoauth2User ∨ m = .xoauth2Token) e
  | .oauthbearer => isInputless input e ∨ isRefused e ∨ isMissing [.oauthBearerValidate] e ∨
      isMech (fun m => m = .oauthSerde ∨ ∃ x, m = .oauthParse x ∧ x ≠ .missingPart) e
  | .gssapi => isWriteAll e ∨ isMech gssSort e ∨ isInputless input e ∨ e = .mechanismDone
  | .scramServer _ b => scramServerErrors input b e
  | .scramServerPlus _ => scramServerErrors input true e
  | _ => False

/-- Errors of `encode` and `decode`. -/
def layerErrors (a : Auth) (e : SessionError) : Prop :=
  e = .noSecurityLayer ∨ a = .gssapi ∧ (isWriteAll e ∨ isMech (fun m => ∃ n, m = .gss n) e)

end Spec

end Rsasl
