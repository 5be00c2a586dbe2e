/-
What is wrong with a message that a server refuses, for the mechanisms other than SCRAM and GSSAPI.
-/
import Verif.Props.OAuthGrammar
import Verif.Props.Plain

namespace Rsasl.Spec

/-- No text has this encoding. -/
def NotUtf8 (b : Bytes) : Prop := ∀ s, b ≠ Str.bytes s

/-- The three parts of a PLAIN message, RFC 4616. -/
structure PlainParts (message authzid authid password : Bytes) : Prop where
  eq : message = authzid ++ 0 :: authid ++ 0 :: password
  noNul : (0 : UInt8) ∉ authzid ∧ (0 : UInt8) ∉ authid ∧ (0 : UInt8) ∉ password

/-- What the errors of a PLAIN server say. -/
inductive PlainFault (prep : Str → Option Str) (message : Bytes) : PlainError → Prop
  | short : message.length < 4 → PlainFault prep message .badFormat
  | parts : message.count 0 ≠ 2 → PlainFault prep message .badFormat
  | authzid {z a p} : 4 ≤ message.length → PlainParts message z a p → NotUtf8 z →
      PlainFault prep message .badAuthzid
  | authid {z a p} : 4 ≤ message.length → PlainParts message (Str.bytes z) a p → NotUtf8 a →
      PlainFault prep message .badAuthcid
  | prepAuthid {z a p} : 4 ≤ message.length → PlainParts message (Str.bytes z) (Str.bytes a) p →
      prep a = none → PlainFault prep message .saslprep
  | noAuthid {z a p} : 4 ≤ message.length → PlainParts message (Str.bytes z) (Str.bytes a) p →
      prep a = some [] → PlainFault prep message .empty
  | prepPassword {z a p a'} : 4 ≤ message.length →
      PlainParts message (Str.bytes z) (Str.bytes a) (Str.bytes p) →
      prep a = some a' → a' ≠ [] → prep p = none → PlainFault prep message .saslprep
  | noPassword {z a p a'} : 4 ≤ message.length →
      PlainParts message (Str.bytes z) (Str.bytes a) (Str.bytes p) →
      prep a = some a' → a' ≠ [] → prep p = some [] → PlainFault prep message .empty

/-- The two parts of an XOAUTH2 message. -/
structure XOAuth2Parts (message user token : Bytes) : Prop where
  eq : message = b!"user=" ++ user ++ 1 :: b!"auth=Bearer " ++ token ++ [1, 1]
  noSep : (1 : UInt8) ∉ user

/-- What the errors of an XOAUTH2 server say. -/
inductive XOAuth2Fault (message : Bytes) : MechErr → Prop
  | format : (∀ u t, ¬ XOAuth2Parts message u t) → XOAuth2Fault message .xoauth2Format
  | user {u t} : XOAuth2Parts message u t → NotUtf8 u → XOAuth2Fault message .xoauth2User
  | token {u t} : XOAuth2Parts message (Str.bytes u) t → NotUtf8 t →
      XOAuth2Fault message .xoauth2Token

/-- An OAUTHBEARER message cut at its separators: the gs2 header and the items. -/
structure OAuthParts (message header : Bytes) (items : List Bytes) : Prop where
  eq : message = header ++ items.flatMap (1 :: ·) ++ [1, 1]
  noSep : (1 : UInt8) ∉ header ∧ ∀ i ∈ items, (1 : UInt8) ∉ i

/-- What may follow the authorization id in a gs2 header that is taken. -/
def AfterAuthzid (junk : Bytes) : Prop := junk = [] ∨ ∃ r, junk = 44 :: r

/-- A gs2 header that is taken. -/
def OAuthHeader (header : Bytes) : Prop :=
  ∃ (authzid : Option Str) (junk : Bytes), header = b!"n," ++ gs2Authzid authzid ++ junk ∧
    (∀ a ∈ authzid, ',' ∉ a) ∧ AfterAuthzid junk

/-- What is wrong with a gs2 header. -/
inductive OAuthHeaderFault (header : Bytes) : OParseError → Prop
  /-- it does not begin with the flag `n`: it asks for channel binding, or is no header -/
  | flag : header ≠ b!"n" → ¬ b!"n," <+: header → OAuthHeaderFault header .channelBindings
  | cut : header = b!"n" → OAuthHeaderFault header .invalidGs2
  | authzid {z junk} : header = b!"n," ++ z ++ junk → (44 : UInt8) ∉ z → AfterAuthzid junk →
      z ≠ [] → ¬ b!"a=" <+: z → OAuthHeaderFault header .invalidGs2
  | text {z junk} : header = b!"n,a=" ++ z ++ junk → (44 : UInt8) ∉ z → AfterAuthzid junk →
      NotUtf8 z → OAuthHeaderFault header .invalidUtf8

/-- What is wrong with an item. -/
inductive OAuthItemFault (item : Bytes) : OParseError → Prop
  | auth {v} : item = b!"auth=" ++ v → NotUtf8 v → OAuthItemFault item .invalidUtf8
  | pair : ¬ b!"auth=" <+: item → item.count 61 ≠ 1 → OAuthItemFault item .invalidKVPair
  | text {k v} : ¬ b!"auth=" <+: item → item = k ++ 61 :: v → (61 : UInt8) ∉ k → (61 : UInt8) ∉ v →
      NotUtf8 k ∨ NotUtf8 v → OAuthItemFault item .invalidUtf8

/-- What the errors of an OAUTHBEARER server say: the first thing that is wrong. -/
inductive OAuthFault (message : Bytes) : OParseError → Prop
  | notEnded : ¬ [1, 1] <:+ message → OAuthFault message .missingEnd
  | header {h is e} : OAuthParts message h is → OAuthHeaderFault h e → OAuthFault message e
  | item {h i after e} {good : List OAuthItem} :
      OAuthParts message h (good.map OAuthItem.wire ++ i :: after) → OAuthHeader h →
      (∀ g ∈ good, g.Plain) → OAuthItemFault i e → OAuthFault message e
  | noToken {h} {good : List OAuthItem} : OAuthParts message h (good.map OAuthItem.wire) →
      OAuthHeader h → (∀ g ∈ good, g.Plain ∧ g.auth? = none) → OAuthFault message .missingToken

end Rsasl.Spec
