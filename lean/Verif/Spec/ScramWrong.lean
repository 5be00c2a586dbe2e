/-
Which fault each malformed SCRAM message has. A message is taken apart at its commas; the fault is
that of the first field that is not as it should be.
-/
import Verif.Spec.ScramGrammar

namespace Rsasl.Spec

open Scram (CbFlag)

/-- `input` is these fields with commas between them. -/
inductive Fields : Bytes → List Bytes → Prop where
  | one {p : Bytes} (h : 44 ∉ p) : Fields p [p]
  | more {p rest : Bytes} {ps : List Bytes} (h : 44 ∉ p) (hr : Fields rest ps) :
      Fields (p ++ b!"," ++ rest) (p :: ps)

/-- A byte of a channel binding name. -/
def CbNameByte (b : UInt8) : Prop :=
  (0x41 ≤ b.toNat ∧ b.toNat ≤ 0x5a) ∨ (0x61 ≤ b.toNat ∧ b.toNat ≤ 0x7a) ∨
    (0x30 ≤ b.toNat ∧ b.toNat ≤ 0x39) ∨ b = 0x2e ∨ b = 0x2d

/-- Bytes that are no text. -/
def NoText (b : Bytes) : Prop := ∀ t : Str, b ≠ Str.bytes t

/-- A field of another attribute than `keys`: at least two bytes, the first of which is `x`. -/
def OtherField (keys : List Bytes) (x : UInt8) (p : Bytes) : Prop :=
  ∃ y v, p = x :: y :: v ∧ [x, y] ∉ keys

/-- What is wrong with a client-first message. -/
inductive ClientFirstWrong : List Bytes → SParseError → Prop where
  /-- the first field is none of `n`, `y` and `p=` with something after it -/
  | flag {p ps} (h1 : p ≠ b!"n") (h2 : p ≠ b!"y") (h3 : ∀ x v, p ≠ b!"p=" ++ x :: v) :
      ClientFirstWrong (p :: ps) .badCBFlag
  /-- the first byte of the name that does not belong there -/
  | cbName {good rest ps} {bad : UInt8} (h1 : ∀ b ∈ good, CbNameByte b) (h2 : ¬ CbNameByte bad) :
      ClientFirstWrong ((b!"p=" ++ good ++ bad :: rest) :: ps) (.badCBName bad)
  | header {flag p} (h : FlagText flag p) : ClientFirstWrong [p] .badGS2Header
  | authzid {flag p x y v ps} (h : FlagText flag p) (hv : NoText v) :
      ClientFirstWrong (p :: (x :: y :: v) :: ps) .badUtf8
  | noName {flag p authzid az} (h : FlagText flag p) (ha : AnyAuthzid authzid az) :
      ClientFirstWrong [p, az] .missingAttributes
  | mandatory {flag p authzid az v ps} (h : FlagText flag p) (ha : AnyAuthzid authzid az) :
      ClientFirstWrong (p :: az :: (b!"m=" ++ v) :: ps) .unknownMandatoryExtensions
  | notName {flag p authzid az x f ps} (h : FlagText flag p) (ha : AnyAuthzid authzid az)
      (hf : OtherField [b!"m=", b!"n="] x f) :
      ClientFirstWrong (p :: az :: f :: ps) (.invalidAttribute x)
  | name {flag p authzid az v ps} (h : FlagText flag p) (ha : AnyAuthzid authzid az)
      (hv : NoText v) : ClientFirstWrong (p :: az :: (b!"n=" ++ v) :: ps) .badUtf8
  | noNonce {flag p authzid az user} (h : FlagText flag p) (ha : AnyAuthzid authzid az) :
      ClientFirstWrong [p, az, b!"n=" ++ Str.bytes user] .missingAttributes
  | notNonce {flag p authzid az user x f ps} (h : FlagText flag p) (ha : AnyAuthzid authzid az)
      (hf : OtherField [b!"r="] x f) :
      ClientFirstWrong (p :: az :: (b!"n=" ++ Str.bytes user) :: f :: ps) (.invalidAttribute x)
  | nonce {flag p authzid az user v ps} {b : UInt8} (h : FlagText flag p)
      (ha : AnyAuthzid authzid az) (hb : b ∈ v) (hp : ¬ Printable b) :
      ClientFirstWrong (p :: az :: (b!"n=" ++ Str.bytes user) :: (b!"r=" ++ v) :: ps) .badNonce

/-- What is wrong with a server-first message. -/
inductive ServerFirstWrong : List Bytes → SParseError → Prop where
  | short {p ps} (h : p.length < 2) : ServerFirstWrong (p :: ps) .missingAttributes
  | mandatory {v ps} : ServerFirstWrong ((b!"m=" ++ v) :: ps) .unknownMandatoryExtensions
  | notNonce {x f ps} (hf : OtherField [b!"m=", b!"r="] x f) :
      ServerFirstWrong (f :: ps) (.invalidAttribute x)
  | noSalt {n} : ServerFirstWrong [b!"r=" ++ n] .missingAttributes
  | notSalt {n x f ps} (hf : OtherField [b!"s="] x f) :
      ServerFirstWrong ((b!"r=" ++ n) :: f :: ps) (.invalidAttribute x)
  | noCount {n s} : ServerFirstWrong [b!"r=" ++ n, b!"s=" ++ s] .missingAttributes
  | notCount {n s x f ps} (hf : OtherField [b!"i="] x f) :
      ServerFirstWrong ((b!"r=" ++ n) :: (b!"s=" ++ s) :: f :: ps) (.invalidAttribute x)
  /-- anything more, be it only one byte -/
  | more {n s i} {x : UInt8} {v ps} :
      ServerFirstWrong ((b!"r=" ++ n) :: (b!"s=" ++ s) :: (b!"i=" ++ i) :: (x :: v) :: ps)
        (.invalidAttribute x)

/-- What is wrong with a client-final message. -/
inductive ClientFinalWrong : List Bytes → SParseError → Prop where
  | notBinding {x f ps} (hf : OtherField [b!"c="] x f) :
      ClientFinalWrong (f :: ps) (.invalidAttribute x)
  | noNonce {c} : ClientFinalWrong [b!"c=" ++ c] .missingAttributes
  | notNonce {c x f ps} (hf : OtherField [b!"r="] x f) :
      ClientFinalWrong ((b!"c=" ++ c) :: f :: ps) (.invalidAttribute x)
  | noProof {c n exts} (he : ∀ e ∈ exts, ∃ x, OtherField [b!"p=", b!"m="] x e) :
      ClientFinalWrong ((b!"c=" ++ c) :: (b!"r=" ++ n) :: exts) .missingAttributes
  | mandatory {c n exts v ps} (he : ∀ e ∈ exts, ∃ x, OtherField [b!"p=", b!"m="] x e) :
      ClientFinalWrong ((b!"c=" ++ c) :: (b!"r=" ++ n) :: (exts ++ (b!"m=" ++ v) :: ps))
        .unknownMandatoryExtensions
  /-- anything after the proof, be it only one byte -/
  | more {c n exts p} {x : UInt8} {v ps} (he : ∀ e ∈ exts, ∃ x, OtherField [b!"p=", b!"m="] x e) :
      ClientFinalWrong ((b!"c=" ++ c) :: (b!"r=" ++ n) :: (exts ++ (b!"p=" ++ p) :: (x :: v) :: ps))
        (.invalidAttribute x)

/-- The values of `server-error-value`, RFC 5802 section 7, but for `other-error`. -/
def errorNames : List (Bytes × ServerErrorValue) :=
  [(b!"invalid-encoding", .invalidEncoding),
   (b!"extensions-not-supported", .extensionsNotSupported),
   (b!"invalid-proof", .invalidProof),
   (b!"channel-bindings-dont-match", .channelBindingsDontMatch),
   (b!"server-does-support-channel-binding", .serverDoesSupportChannelBinding),
   (b!"channel-binding-not-supported", .channelBindingNotSupported),
   (b!"unsupported-channel-binding-type", .unsupportedChannelBindingType),
   (b!"unknown-user", .unknownUser),
   (b!"invalid-username-encoding", .invalidUsernameEncoding),
   (b!"no-resources", .noResources)]

/-- The error a server means by `text`: the one of that name, and `other-error` for all it does not
name. -/
inductive Means (text : Bytes) : ServerErrorValue → Prop where
  | named {e} (h : (text, e) ∈ errorNames) : Means text e
  | other (h : ∀ e, (text, e) ∉ errorNames) : Means text .otherError

end Rsasl.Spec
