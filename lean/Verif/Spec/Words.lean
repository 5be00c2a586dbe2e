/-
The wording of errors: the formats of `#[error(…)]` as they are in the source, filled in; the forms `#[derive(Debug)]`
gives to variants; what a log that shows an error and its sources tells.
-/
import Verif.Model.Display

namespace Rsasl.Spec

/-- A format of `format!`, each `{…}` replaced by one of the arguments. -/
def filled : Bool → Str → List Str → Str
  | _, [], _ => []
  | true, c :: t, as => filled (decide (c ≠ '}')) t as
  | false, c :: t, as => if c = '{' then as.headD [] ++ filled true t as.tail else c :: filled false t as

/-- A format with arguments. -/
abbrev says (format : Str) (args : List Str) : Str := filled false format args

def decimal (n : Nat) : Str := Nat.toDigits 10 n

def hex (b : UInt8) : Str := c!"0x" ++ Nat.toDigits 16 b.toNat

variable (x : Detail)

/-- `Display` of `core::str::Utf8Error`, library/core/src/str/error.rs. -/
def utf8Text : Utf8Error → Str
  | ⟨i, some n⟩ => says (c!"invalid utf-8 sequence of {} bytes from index {}") [decimal n, decimal i]
  | ⟨i, none⟩ => says (c!"incomplete utf-8 byte sequence from index {}") [decimal i]

/-- src/mechanisms/plain/mechinfo.rs:38-55 -/
def plainErrorText : PlainError → Str
  | .containsNull => says (c!"The given value contains a NULL-byte") []
  | .empty => says (c!"authid and password must not be empty") []
  | .badFormat => says (c!"invalid format, expected three strings separated by two NULL-bytes") []
  | .badAuthzid => says (c!"authzid is invalid UTF-8: {0}") [x.utf8.display]
  | .badAuthcid => says (c!"authcid is invalid UTF-8: {0}") [x.utf8.display]
  | .saslprep => says (c!"saslprep failed: {0}") [x.foreign]

/-- src/mechanisms/scram/parser.rs:8-21 -/
def saslNameText : SaslNameError → Str
  | .empty => says (c!"empty string is invalid for name") []
  | .invalidUtf8 => says (c!"name contains invalid utf-8: {0}") [x.utf8.display]
  | .invalidChar b => says (c!"name contains invalid char {0}") [decimal b.toNat]
  | .invalidEscape => says (c!"name contains invalid escape sequence") []

/-- src/mechanisms/scram/parser.rs:159-180 -/
def scramParseText : SParseError → Str
  | .badCBFlag => says (c!"bad channel flag") []
  | .badCBName b => says (c!"channel binding name contains invalid byte {0:#x}") [hex b]
  | .badGS2Header => says (c!"invalid gs2header") []
  | .invalidAttribute b => says (c!"attribute contains invalid byte {0:#x}") [hex b]
  | .missingAttributes => says (c!"required attribute is missing") []
  | .unknownMandatoryExtensions => says (c!"an extension is unknown but marked mandatory") []
  | .badUtf8 => says (c!"invalid UTF-8: {0}") [x.utf8.display]
  | .badNonce => says (c!"nonce contains invalid character") []

/-- src/mechanisms/scram/client.rs:494-503 -/
def protocolText : ProtocolError → Str
  | .invalidNonce => says (c!"returned server nonce is invalid") []
  | .iterationCountFormat => says (c!"iteration count must be decimal") []
  | .iterationCountZero => says (c!"iteration count can't be zero") []
  | .base64Decode => says (c!"base64 decoding of data failed") []

/-- src/mechanisms/oauthbearer/parser.rs:6-24 -/
def oauthText : OParseError → Str
  | .missingPart => says (c!"input is missing a required part") []
  | .missingEnd => says (c!"final terminator is missing. Incomplete input?") []
  | .missingToken => says (c!"required 'auth' field is missing") []
  | .invalidGs2 => says (c!"gs2-header is invalid") []
  | .channelBindings => says (c!"OAUTHBEARER can't support channel bindings") []
  | .invalidKVPair => says (c!"K/V pair is invalid") []
  | .invalidUtf8 => says (c!"Invalid UTF-8") []

/-- The errors of the mechanisms. -/
def mechanismText : MechErr → Str
  | .plain e => plainErrorText x e
  | .loginUtf8 => x.utf8.display
  | .externalUtf8 => says (c!"the given external token is invalid UTF-8") []
  | .anonymousUtf8 => says (c!"anonymous token received is invalid UTF-8 or longer than 255 chars") []
  | .xoauth2ClientUtf8 => says (c!"response message is invalid UTF-8") []
  | .xoauth2User => says (c!"provided {0} is not UTF-8 encoded") [c!"username"]
  | .xoauth2Token => says (c!"provided {0} is not UTF-8 encoded") [c!"bearer token"]
  | .xoauth2Format => says (c!"input is of an invalid format") []
  | .oauthParse _ => says (c!"failed to parse message") []
  | .oauthSerde => says (c!"failed to serialize error message") []
  | .saslName e => saslNameText x e
  | .scramProtocol e => says (c!"SCRAM protocol error: {0}") [protocolText e]
  | .scramParse e => says (c!"failed to parse received message: {0}") [scramParseText x e]
  | .scramServer e => says (c!"SCRAM outcome error: {0}") [e.display]
  | .scramPasswordHashInvalid => says (c!"provided password hash is wrong size for selected algorithm") []
  | .scramChannelBindingsNotUsed => says (c!"channel bindings are supported by both sides but were not used") []
  | .gss _ => says (c!"GSS-API error: {0}") [x.foreign]
  | .gssBadFinalToken => says (c!"final token is invalid") []
  | .gssBadContext => says (c!"produced context is not secure enough") []
  | .custom _ => x.foreign

/-- src/error.rs:40-103 -/
def sessionText : SessionError → Str
  | .io _ => says (c!"IO error occurred") []
  | .base64 => says (c!"base64 wrapping failed") []
  | .noSecurityLayer => says (c!"no security layer is installed") []
  | .inputDataRequired => says (c!"input data was required but not provided") []
  | .mechanismDone => says (c!"step was called after mechanism finished") []
  | .mechanismError e => says (c!"internal mechanism error: {0}") [mechanismText x e]
  | .callbackError _ => says (c!"callback error") []
  | .validationError _ => says (c!"validation error") []
  | .boxed _ => x.foreign
  | .noValidate => says (c!"callback did not validate the authentication exchange") []
  | .mutualAuthenticationFailed => says (c!"the server failed mutual authentication") []
  | .missingChannelBindingData name => says (c!"channel binding data for '{0}' is required") [name]

/-- src/callback.rs:196-205, src/validate.rs:168-173 -/
def sourceTexts : SessionError → List Str
  | .io _ => [x.foreign]
  | .base64 => [x.foreign]
  | .callbackError .noValue => [says (c!"callback could not provide a value for this query type") []]
  | .callbackError (.noCallback p) => [says (c!"callback does not handle property {0}") [x.typeName p]]
  | .callbackError .earlyReturn => [says (c!"callback issued early return") []]
  | .validationError .missingRequiredProperty => [says (c!"A required property was not provided") []]
  | .validationError (.boxed _) => [x.foreign]
  | _ => []

/-- `Debug` of a variant with fields in parentheses. -/
def tuple (name : Str) : List Str → Str
  | [] => name
  | a :: as => name ++ c!"(" ++ a ++ as.flatMap (fun b => c!", " ++ b) ++ c!")"

/-- `Debug` of the errors of the mechanisms. -/
def mechanismDebug : MechErr → Str
  | .plain .containsNull => c!"ContainsNull"
  | .plain .empty => c!"Empty"
  | .plain .badFormat => c!"BadFormat"
  | .plain .badAuthzid => tuple (c!"BadAuthzid") [x.utf8.debug]
  | .plain .badAuthcid => tuple (c!"BadAuthcid") [x.utf8.debug]
  | .plain .saslprep => tuple (c!"Saslprep") [x.foreignDebug]
  | .loginUtf8 => tuple (c!"Utf8") [x.utf8.debug]
  | .externalUtf8 => tuple (c!"ParseError") [x.utf8.debug]
  | .anonymousUtf8 => tuple (c!"ParseError") [x.utf8.debug]
  | .xoauth2ClientUtf8 => tuple (c!"Utf8") [x.utf8.debug]
  | .xoauth2User => tuple (c!"NotUtf8") [c!"\"username\"", x.utf8.debug]
  | .xoauth2Token => tuple (c!"NotUtf8") [c!"\"bearer token\"", x.utf8.debug]
  | .xoauth2Format => c!"InvalidFormat"
  | .oauthParse .missingPart => tuple (c!"Parse") [c!"MissingPart"]
  | .oauthParse .missingEnd => tuple (c!"Parse") [c!"MissingEnd"]
  | .oauthParse .missingToken => tuple (c!"Parse") [c!"MissingToken"]
  | .oauthParse .invalidGs2 => tuple (c!"Parse") [c!"InvalidGs2"]
  | .oauthParse .channelBindings => tuple (c!"Parse") [c!"ChannelBindings"]
  | .oauthParse .invalidKVPair => tuple (c!"Parse") [c!"InvalidKVPair"]
  | .oauthParse .invalidUtf8 => tuple (c!"Parse") [tuple (c!"InvalidUtf8") [x.utf8.debug]]
  | .oauthSerde => tuple (c!"Serde") [x.foreignDebug]
  | .saslName .empty => c!"Empty"
  | .saslName .invalidUtf8 => tuple (c!"InvalidUtf8") [x.utf8.debug]
  | .saslName (.invalidChar b) => tuple (c!"InvalidChar") [decimal b.toNat]
  | .saslName .invalidEscape => c!"InvalidEscape"
  | .scramProtocol .invalidNonce => tuple (c!"Protocol") [c!"InvalidNonce"]
  | .scramProtocol .iterationCountFormat => tuple (c!"Protocol") [c!"IterationCountFormat"]
  | .scramProtocol .iterationCountZero => tuple (c!"Protocol") [c!"IterationCountZero"]
  | .scramProtocol .base64Decode => tuple (c!"Protocol") [c!"Base64Decode"]
  | .scramParse .badCBFlag => tuple (c!"ParseError") [c!"BadCBFlag"]
  | .scramParse (.badCBName b) => tuple (c!"ParseError") [tuple (c!"BadCBName") [decimal b.toNat]]
  | .scramParse .badGS2Header => tuple (c!"ParseError") [c!"BadGS2Header"]
  | .scramParse (.invalidAttribute b) => tuple (c!"ParseError") [tuple (c!"InvalidAttribute") [decimal b.toNat]]
  | .scramParse .missingAttributes => tuple (c!"ParseError") [c!"MissingAttributes"]
  | .scramParse .unknownMandatoryExtensions => tuple (c!"ParseError") [c!"UnknownMandatoryExtensions"]
  | .scramParse .badUtf8 => tuple (c!"ParseError") [tuple (c!"BadUtf8") [x.utf8.debug]]
  | .scramParse .badNonce => tuple (c!"ParseError") [c!"BadNonce"]
  | .scramServer e => tuple (c!"ServerError") [e.debug]
  | .scramPasswordHashInvalid => c!"PasswordHashInvalid"
  | .scramChannelBindingsNotUsed => c!"ChannelBindingsNotUsed"
  | .gss _ => tuple (c!"Gss") [x.foreignDebug]
  | .gssBadFinalToken => c!"BadFinalToken"
  | .gssBadContext => c!"BadContext"
  | .custom _ => x.foreignDebug

/-- `Debug` of a `SessionError`. -/
def sessionDebug : SessionError → Str
  | .io _ => c!"Io { source: " ++ x.foreignDebug ++ c!" }"
  | .base64 => c!"Base64 { source: " ++ x.foreignDebug ++ c!" }"
  | .noSecurityLayer => c!"NoSecurityLayer"
  | .inputDataRequired => c!"InputDataRequired"
  | .mechanismDone => c!"MechanismDone"
  | .mechanismError e => tuple (c!"MechanismError") [mechanismDebug x e]
  | .callbackError .noValue => tuple (c!"CallbackError") [c!"NoValue"]
  | .callbackError (.noCallback p) => tuple (c!"CallbackError") [tuple (c!"NoCallback") [x.quote (x.typeName p)]]
  | .callbackError .earlyReturn => tuple (c!"CallbackError") [tuple (c!"EarlyReturn") [tuple (c!"TOKEN") [x.foreignDebug]]]
  | .validationError .missingRequiredProperty => tuple (c!"ValidationError") [c!"MissingRequiredProperty"]
  | .validationError (.boxed _) => tuple (c!"ValidationError") [tuple (c!"Boxed") [x.foreignDebug]]
  | .boxed _ => tuple (c!"Boxed") [x.foreignDebug]
  | .noValidate => c!"NoValidate"
  | .mutualAuthenticationFailed => c!"MutualAuthenticationFailed"
  | .missingChannelBindingData name => tuple (c!"MissingChannelBindingData") [x.quote name]

/-- The characters with an escape of their own in `Debug` of a string, and the letter of it
(library/core/src/char/methods.rs, `escape_debug_ext`). -/
def ownEscapes : List (Char × Char) :=
  [('\x00', '0'), ('\t', 't'), ('\r', 'r'), ('\n', 'n'), ('"', '"'), ('\\', '\\')]

/-- `Debug` of an ASCII character in a string. -/
def asciiDebug (c : Char) : Str :=
  match ownEscapes.lookup c with
  | some l => ['\\', l]
  | none => if 0x20 ≤ c.toNat ∧ c.toNat ≠ 0x7F then [c] else ['\\', 'u', '{'] ++ Nat.toDigits 16 c.toNat ++ ['}']

/-- What a log that shows an error together with its sources has. -/
def report (e : SessionError) : List Str := e.display x :: e.sources x

/-- An error that is, or holds, one of another crate or of the application, which may say anything. -/
def Foreign : SessionError → Prop
  | .boxed _ => True
  | .validationError (.boxed _) => True
  | .mechanismError (.custom _) => True
  | _ => False

/-- Errors a report does not tell apart: the kinds of I/O errors and of errors of GSS-API, told in words of others, and
all the errors of OAUTHBEARER about a message. -/
def ReadsAs : SessionError → SessionError → Prop
  | .io _, .io _ => True
  | .mechanismError (.gss _), .mechanismError (.gss _) => True
  | .mechanismError (.oauthParse _), .mechanismError (.oauthParse _) => True
  | e, e' => e = e'

end Rsasl.Spec
