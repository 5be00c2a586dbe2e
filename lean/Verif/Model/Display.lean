/-
What errors say: the texts `Display` (`#[error(…)]` of `thiserror`) and `Debug` (`#[derive(Debug)]`) make of
them. The payloads that `Verif.Model.Error` leaves out come in again here, as `Detail`.
-/
import Verif.Model.Error
import Verif.Model.Mech.ScramParser
import Verif.Model.Mechname

namespace Rsasl

/-- `core::str::Utf8Error`. -/
structure Utf8Error where
  validUpTo : Nat
  errorLen : Option Nat
deriving DecidableEq

/-- What there is to say about an error besides what `SessionError` keeps of it. -/
structure Detail where
  /-- the `Utf8Error` inside, if there is one -/
  utf8 : Utf8Error
  /-- `Display` and `Debug` of what comes from another crate: an I/O error, the error of `base64`, `stringprep`,
  `serde_json` or `libgssapi`, a boxed error, the error of a mechanism outside of the crate -/
  foreign : Str
  foreignDebug : Str
  /-- `core::any::type_name` of a property -/
  typeName : Property → Str
  /-- how `Debug` writes a character outside of ASCII in a string: as it is, or escaped -/
  escape : Char → Str

/-- `{}` of a number. -/
def showNat (n : Nat) : Str := Nat.toDigits 10 n

/-- `{:#x}` of a byte. -/
def showHex (b : UInt8) : Str := c!"0x" ++ Nat.toDigits 16 b.toNat

namespace Utf8Error

/-- `Display` (library/core/src/str/error.rs). -/
def display (u : Utf8Error) : Str :=
  match u.errorLen with
  | some n => c!"invalid utf-8 sequence of " ++ showNat n ++ c!" bytes from index " ++ showNat u.validUpTo
  | none => c!"incomplete utf-8 byte sequence from index " ++ showNat u.validUpTo

/-- `Debug`, derived. -/
def debug (u : Utf8Error) : Str :=
  c!"Utf8Error { valid_up_to: " ++ showNat u.validUpTo ++ c!", error_len: " ++
    (match u.errorLen with
      | some n => c!"Some(" ++ showNat n ++ c!")"
      | none => c!"None") ++ c!" }"

end Utf8Error

variable (x : Detail)

/-- `Debug` of one character in a string (`char::escape_debug_ext` without single quotes). -/
def Detail.quoteChar (c : Char) : Str :=
  if c = '\x00' then c!"\\0"
  else if c = '\t' then c!"\\t"
  else if c = '\r' then c!"\\r"
  else if c = '\n' then c!"\\n"
  else if c = '"' then c!"\\\""
  else if c = '\\' then c!"\\\\"
  else if c.toNat < 0x20 ∨ c.toNat = 0x7F then c!"\\u{" ++ Nat.toDigits 16 c.toNat ++ c!"}"
  else if c.toNat < 0x7F then [c]
  else x.escape c

/-- `Debug` of a string. -/
def Detail.quote (s : Str) : Str := '"' :: s.flatMap x.quoteChar ++ ['"']

/-- src/mechanisms/plain/mechinfo.rs:36-55 -/
def PlainError.display : PlainError → Str
  | .containsNull => c!"The given value contains a NULL-byte"
  | .empty => c!"authid and password must not be empty"
  | .badFormat => c!"invalid format, expected three strings separated by two NULL-bytes"
  | .badAuthzid => c!"authzid is invalid UTF-8: " ++ x.utf8.display
  | .badAuthcid => c!"authcid is invalid UTF-8: " ++ x.utf8.display
  | .saslprep => c!"saslprep failed: " ++ x.foreign

def PlainError.debug : PlainError → Str
  | .containsNull => c!"ContainsNull"
  | .empty => c!"Empty"
  | .badFormat => c!"BadFormat"
  | .badAuthzid => c!"BadAuthzid(" ++ x.utf8.debug ++ c!")"
  | .badAuthcid => c!"BadAuthcid(" ++ x.utf8.debug ++ c!")"
  | .saslprep => c!"Saslprep(" ++ x.foreignDebug ++ c!")"

/-- src/mechanisms/oauthbearer/parser.rs:4-24 -/
def OParseError.debug : OParseError → Str
  | .missingPart => c!"MissingPart"
  | .missingEnd => c!"MissingEnd"
  | .missingToken => c!"MissingToken"
  | .invalidGs2 => c!"InvalidGs2"
  | .channelBindings => c!"ChannelBindings"
  | .invalidKVPair => c!"InvalidKVPair"
  | .invalidUtf8 => c!"InvalidUtf8(" ++ x.utf8.debug ++ c!")"

/-- src/mechanisms/scram/parser.rs:7-21 -/
def SaslNameError.display : SaslNameError → Str
  | .empty => c!"empty string is invalid for name"
  | .invalidUtf8 => c!"name contains invalid utf-8: " ++ x.utf8.display
  | .invalidChar b => c!"name contains invalid char " ++ showNat b.toNat
  | .invalidEscape => c!"name contains invalid escape sequence"

def SaslNameError.debug : SaslNameError → Str
  | .empty => c!"Empty"
  | .invalidUtf8 => c!"InvalidUtf8(" ++ x.utf8.debug ++ c!")"
  | .invalidChar b => c!"InvalidChar(" ++ showNat b.toNat ++ c!")"
  | .invalidEscape => c!"InvalidEscape"

/-- src/mechanisms/scram/parser.rs:158-180 -/
def SParseError.display : SParseError → Str
  | .badCBFlag => c!"bad channel flag"
  | .badCBName b => c!"channel binding name contains invalid byte " ++ showHex b
  | .badGS2Header => c!"invalid gs2header"
  | .invalidAttribute b => c!"attribute contains invalid byte " ++ showHex b
  | .missingAttributes => c!"required attribute is missing"
  | .unknownMandatoryExtensions => c!"an extension is unknown but marked mandatory"
  | .badUtf8 => c!"invalid UTF-8: " ++ x.utf8.display
  | .badNonce => c!"nonce contains invalid character"

def SParseError.debug : SParseError → Str
  | .badCBFlag => c!"BadCBFlag"
  | .badCBName b => c!"BadCBName(" ++ showNat b.toNat ++ c!")"
  | .badGS2Header => c!"BadGS2Header"
  | .invalidAttribute b => c!"InvalidAttribute(" ++ showNat b.toNat ++ c!")"
  | .missingAttributes => c!"MissingAttributes"
  | .unknownMandatoryExtensions => c!"UnknownMandatoryExtensions"
  | .badUtf8 => c!"BadUtf8(" ++ x.utf8.debug ++ c!")"
  | .badNonce => c!"BadNonce"

/-- `ServerErrorValue::as_str`, src/mechanisms/scram/parser.rs:526-546. -/
def ServerErrorValue.display : ServerErrorValue → Str
  | .invalidEncoding => c!"invalid encoding"
  | .extensionsNotSupported => c!"extensions not supported"
  | .invalidProof => c!"invalid proof"
  | .channelBindingsDontMatch => c!"channel bindings dont match"
  | .serverDoesSupportChannelBinding => c!"server does support channel binding"
  | .channelBindingNotSupported => c!"channel binding not supported"
  | .unsupportedChannelBindingType => c!"unsupported channel binding type"
  | .unknownUser => c!"unknown user"
  | .invalidUsernameEncoding => c!"invalid username encoding"
  | .noResources => c!"no resources"
  | .otherError => c!"other error"

def ServerErrorValue.debug : ServerErrorValue → Str
  | .invalidEncoding => c!"InvalidEncoding"
  | .extensionsNotSupported => c!"ExtensionsNotSupported"
  | .invalidProof => c!"InvalidProof"
  | .channelBindingsDontMatch => c!"ChannelBindingsDontMatch"
  | .serverDoesSupportChannelBinding => c!"ServerDoesSupportChannelBinding"
  | .channelBindingNotSupported => c!"ChannelBindingNotSupported"
  | .unsupportedChannelBindingType => c!"UnsupportedChannelBindingType"
  | .unknownUser => c!"UnknownUser"
  | .invalidUsernameEncoding => c!"InvalidUsernameEncoding"
  | .noResources => c!"NoResources"
  | .otherError => c!"OtherError"

/-- src/mechanisms/scram/client.rs:493-503 -/
def ProtocolError.display : ProtocolError → Str
  | .invalidNonce => c!"returned server nonce is invalid"
  | .iterationCountFormat => c!"iteration count must be decimal"
  | .iterationCountZero => c!"iteration count can't be zero"
  | .base64Decode => c!"base64 decoding of data failed"

def ProtocolError.debug : ProtocolError → Str
  | .invalidNonce => c!"InvalidNonce"
  | .iterationCountFormat => c!"IterationCountFormat"
  | .iterationCountZero => c!"IterationCountZero"
  | .base64Decode => c!"Base64Decode"

/-- The texts of the mechanisms' errors; where they are is said at `MechErr`. -/
def MechErr.display : MechErr → Str
  | .plain e => e.display x
  | .loginUtf8 => x.utf8.display
  | .externalUtf8 => c!"the given external token is invalid UTF-8"
  | .anonymousUtf8 => c!"anonymous token received is invalid UTF-8 or longer than 255 chars"
  | .xoauth2ClientUtf8 => c!"response message is invalid UTF-8"
  | .xoauth2User => c!"provided username is not UTF-8 encoded"
  | .xoauth2Token => c!"provided bearer token is not UTF-8 encoded"
  | .xoauth2Format => c!"input is of an invalid format"
  | .oauthParse _ => c!"failed to parse message"
  | .oauthSerde => c!"failed to serialize error message"
  | .saslName e => e.display x
  | .scramProtocol e => c!"SCRAM protocol error: " ++ e.display
  | .scramParse e => c!"failed to parse received message: " ++ e.display x
  | .scramServer e => c!"SCRAM outcome error: " ++ e.display
  | .scramPasswordHashInvalid => c!"provided password hash is wrong size for selected algorithm"
  | .scramChannelBindingsNotUsed => c!"channel bindings are supported by both sides but were not used"
  | .gss _ => c!"GSS-API error: " ++ x.foreign
  | .gssBadFinalToken => c!"final token is invalid"
  | .gssBadContext => c!"produced context is not secure enough"
  | .custom _ => x.foreign

def MechErr.debug : MechErr → Str
  | .plain e => e.debug x
  | .loginUtf8 => c!"Utf8(" ++ x.utf8.debug ++ c!")"
  | .externalUtf8 => c!"ParseError(" ++ x.utf8.debug ++ c!")"
  | .anonymousUtf8 => c!"ParseError(" ++ x.utf8.debug ++ c!")"
  | .xoauth2ClientUtf8 => c!"Utf8(" ++ x.utf8.debug ++ c!")"
  | .xoauth2User => c!"NotUtf8(" ++ x.quote (c!"username") ++ c!", " ++ x.utf8.debug ++ c!")"
  | .xoauth2Token => c!"NotUtf8(" ++ x.quote (c!"bearer token") ++ c!", " ++ x.utf8.debug ++ c!")"
  | .xoauth2Format => c!"InvalidFormat"
  | .oauthParse e => c!"Parse(" ++ e.debug x ++ c!")"
  | .oauthSerde => c!"Serde(" ++ x.foreignDebug ++ c!")"
  | .saslName e => e.debug x
  | .scramProtocol e => c!"Protocol(" ++ e.debug ++ c!")"
  | .scramParse e => c!"ParseError(" ++ e.debug x ++ c!")"
  | .scramServer e => c!"ServerError(" ++ e.debug ++ c!")"
  | .scramPasswordHashInvalid => c!"PasswordHashInvalid"
  | .scramChannelBindingsNotUsed => c!"ChannelBindingsNotUsed"
  | .gss _ => c!"Gss(" ++ x.foreignDebug ++ c!")"
  | .gssBadFinalToken => c!"BadFinalToken"
  | .gssBadContext => c!"BadContext"
  | .custom _ => x.foreignDebug

/-- `Debug` of `CallbackError`, src/callback.rs:147-205. -/
def CallbackError.debug : CallbackError → Str
  | .noValue => c!"NoValue"
  | .noCallback p => c!"NoCallback(" ++ x.quote (x.typeName p) ++ c!")"
  | .earlyReturn => c!"EarlyReturn(TOKEN(" ++ x.foreignDebug ++ c!"))"

/-- `Debug` of `ValidationError`, src/validate.rs:166-173. -/
def ValidationError.debug : ValidationError → Str
  | .missingRequiredProperty => c!"MissingRequiredProperty"
  | .boxed _ => c!"Boxed(" ++ x.foreignDebug ++ c!")"

/-- `Display` of OAUTHBEARER's `ParseError`, src/mechanisms/oauthbearer/parser.rs:4-24. -/
def OParseError.display : OParseError → Str
  | .missingPart => c!"input is missing a required part"
  | .missingEnd => c!"final terminator is missing. Incomplete input?"
  | .missingToken => c!"required 'auth' field is missing"
  | .invalidGs2 => c!"gs2-header is invalid"
  | .channelBindings => c!"OAUTHBEARER can't support channel bindings"
  | .invalidKVPair => c!"K/V pair is invalid"
  | .invalidUtf8 => c!"Invalid UTF-8"

/-- `Display` of `CallbackError`, src/callback.rs:196-205. -/
def CallbackError.display : CallbackError → Str
  | .noValue => c!"callback could not provide a value for this query type"
  | .noCallback p => c!"callback does not handle property " ++ x.typeName p
  | .earlyReturn => c!"callback issued early return"

/-- `Display` of `ValidationError`, src/validate.rs:166-173. -/
def ValidationError.display : ValidationError → Str
  | .missingRequiredProperty => c!"A required property was not provided"
  | .boxed _ => x.foreign

/-- `Display` of `SessionError`, src/error.rs:36-103. -/
def SessionError.display : SessionError → Str
  | .io _ => c!"IO error occurred"
  | .base64 => c!"base64 wrapping failed"
  | .noSecurityLayer => c!"no security layer is installed"
  | .inputDataRequired => c!"input data was required but not provided"
  | .mechanismDone => c!"step was called after mechanism finished"
  | .mechanismError e => c!"internal mechanism error: " ++ e.display x
  | .callbackError _ => c!"callback error"
  | .validationError _ => c!"validation error"
  | .boxed _ => x.foreign
  | .noValidate => c!"callback did not validate the authentication exchange"
  | .mutualAuthenticationFailed => c!"the server failed mutual authentication"
  | .missingChannelBindingData name => c!"channel binding data for '" ++ name ++ c!"' is required"

/-- `Debug` of `SessionError`. -/
def SessionError.debug : SessionError → Str
  | .io _ => c!"Io { source: " ++ x.foreignDebug ++ c!" }"
  | .base64 => c!"Base64 { source: " ++ x.foreignDebug ++ c!" }"
  | .noSecurityLayer => c!"NoSecurityLayer"
  | .inputDataRequired => c!"InputDataRequired"
  | .mechanismDone => c!"MechanismDone"
  | .mechanismError e => c!"MechanismError(" ++ e.debug x ++ c!")"
  | .callbackError e => c!"CallbackError(" ++ e.debug x ++ c!")"
  | .validationError e => c!"ValidationError(" ++ e.debug x ++ c!")"
  | .boxed _ => c!"Boxed(" ++ x.foreignDebug ++ c!")"
  | .noValidate => c!"NoValidate"
  | .mutualAuthenticationFailed => c!"MutualAuthenticationFailed"
  | .missingChannelBindingData name => c!"MissingChannelBindingData(" ++ x.quote name ++ c!")"

/-- The `Display` texts of the `source()` of a `SessionError`, src/error.rs:36-103: where there is a field named `source`
or one with `#[source]`. There is none for `MechanismError`, so the `#[source]` fields inside the mechanisms' errors are
out of reach. Simplified: sources of errors of other crates are left out. -/
def SessionError.sources : SessionError → List Str
  | .io _ => [x.foreign]
  | .base64 => [x.foreign]
  | .callbackError e => [e.display x]
  | .validationError e => [e.display x]
  | _ => []

/-- `Display` of `MechanismNameError`, src/mechname.rs:162-179. -/
def MechnameError.display : MechnameError → Str
  | .tooShort => c!"a mechanism name can not be empty"
  | .invalidChar index value =>
    c!"contains invalid character at offset " ++ showNat index ++ c!": " ++ showHex value

/-- `Debug` of `MechanismNameError`, derived. -/
def MechnameError.debug : MechnameError → Str
  | .tooShort => c!"TooShort"
  | .invalidChar index value =>
    c!"InvalidChar { index: " ++ showNat index ++ c!", value: " ++ showNat value.toNat ++ c!" }"

/-- `format!("{:?}: {}", &error, &error)`, interop/src/bin/server.rs:210. -/
def Interop.errorText (x : SessionError → Detail) (e : SessionError) : Bytes :=
  Str.bytes (e.debug (x e) ++ c!": " ++ e.display (x e))

end Rsasl
