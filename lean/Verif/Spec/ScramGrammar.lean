/-
The grammar of SCRAM messages, RFC 5802 section 7, and the grammar the code implements.
-/
import Verif.Model.Mech.ScramParser
import Verif.Spec.Base64
import Verif.Spec.Scram

namespace Rsasl.Spec

open Scram (CbFlag)

/-- `cb-name = 1*(ALPHA / DIGIT / "." / "-")` -/
def CbName (name : Bytes) : Prop :=
  name ≠ [] ∧ ∀ b ∈ name, (0x41 ≤ b.toNat ∧ b.toNat ≤ 0x5a) ∨ (0x61 ≤ b.toNat ∧ b.toNat ≤ 0x7a) ∨
    (0x30 ≤ b.toNat ∧ b.toNat ≤ 0x39) ∨ b = 0x2e ∨ b = 0x2d

/-- `gs2-cbind-flag = ("p=" cb-name) / "n" / "y"` -/
inductive FlagText : CbFlag → Bytes → Prop where
  | used (name : Bytes) (h : CbName name) : FlagText (.used name) (b!"p=" ++ name)
  | notSupported : FlagText .notSupported (b!"n")
  | supportedNotUsed : FlagText .supportedNotUsed (b!"y")

/-- `value = 1*value-char`: no NUL and no comma. -/
def Value (v : Str) : Prop := v ≠ [] ∧ '\x00' ∉ v ∧ ',' ∉ v

/-- `attr-val = ALPHA "=" value` -/
def AttrVal (b : Bytes) : Prop :=
  ∃ (a : UInt8) (v : Str), ((0x41 ≤ a.toNat ∧ a.toNat ≤ 0x5a) ∨ (0x61 ≤ a.toNat ∧ a.toNat ≤ 0x7a)) ∧
    Value v ∧ b = a :: 61 :: Str.bytes v

/-- A sequence of attributes, each with the comma before it. -/
def tail : List Bytes → Bytes
  | [] => []
  | e :: es => b!"," ++ e ++ tail es

/-- `[authzid]`, with `authzid = "a=" saslname`. -/
inductive Authzid : Option Str → Bytes → Prop where
  | none : Authzid none []
  | some (name : Str) (h1 : name ≠ []) (h2 : SaslName name) :
      Authzid (some name) (b!"a=" ++ Str.bytes name)

/-- `printable = %x21-2B / %x2D-7E`, at least one. -/
def Nonce (n : Bytes) : Prop := n ≠ [] ∧ ∀ b ∈ n, Printable b

/-- `client-first-message` without `reserved-mext`: `gs2-cbind-flag "," [authzid] "," username ","
nonce ["," extensions]`. The name is as it stands in the message. -/
def ClientFirstMsg (flag : CbFlag) (authzid : Option Str) (user : Str) (nonce input : Bytes) : Prop :=
  ∃ flagText az exts, FlagText flag flagText ∧ Authzid authzid az ∧ user ≠ [] ∧ SaslName user ∧
    Nonce nonce ∧ (∀ e ∈ exts, AttrVal e) ∧
    input = flagText ++ b!"," ++ az ++ b!",n=" ++ Str.bytes user ++ b!",r=" ++ nonce ++ tail exts

/-- `server-first-message` without `reserved-mext`: `nonce "," salt "," iteration-count [","
extensions]`. `posit-number` is left out: `iterations` is any value. -/
def ServerFirstMsg (nonce salt iterations input : Bytes) : Prop :=
  ∃ exts raw count, Nonce nonce ∧ Base64 raw salt ∧ Value count ∧ iterations = Str.bytes count ∧
    (∀ e ∈ exts, AttrVal e) ∧
    input = b!"r=" ++ nonce ++ b!",s=" ++ salt ++ b!",i=" ++ iterations ++ tail exts

/-- `client-final-message` without mandatory extensions: `channel-binding "," nonce [","
extensions] "," proof`. An extension is no proof. -/
def ClientFinalMsg (cb nonce proof input : Bytes) : Prop :=
  ∃ exts rawCb rawProof, Base64 rawCb cb ∧ Nonce nonce ∧ Base64 rawProof proof ∧
    (∀ e ∈ exts, AttrVal e ∧ e.take 2 ≠ b!"p=" ∧ e.take 2 ≠ b!"m=") ∧
    input = b!"c=" ++ cb ++ b!",r=" ++ nonce ++ tail exts ++ b!",p=" ++ proof

/-- `server-final-message = verifier ["," extensions]`, the successful case. -/
def ServerFinalMsg (verifier input : Bytes) : Prop :=
  ∃ exts raw, Base64 raw verifier ∧ (∀ e ∈ exts, AttrVal e) ∧
    input = b!"v=" ++ verifier ++ tail exts

/-- What the code takes for `[authzid]`: nothing, or any two bytes and the name. -/
def AnyAuthzid : Option Str → Bytes → Prop
  | none, az => az = []
  | some name, az => ∃ x y, az = x :: y :: Str.bytes name

/-- A message starts with a part of the gs2 header the code accepts: a flag, and an authzid part
that is empty or has two bytes (any) before the name. -/
def Gs2Start (flag : CbFlag) (authzid : Option Str) (start : Bytes) : Prop :=
  ∃ flagText az, FlagText flag flagText ∧ 44 ∉ az ∧
    AnyAuthzid authzid az ∧
    start = flagText ++ b!"," ++ az ++ b!","

/-- Fewer than two bytes before the next comma or the end. -/
def Short : Bytes → Prop
  | [] => True
  | [_] => True
  | x :: y :: _ => x = 44 ∨ y = 44

/-- Nothing before the next comma or the end. -/
def Empty : Bytes → Prop
  | [] => True
  | x :: _ => x = 44

/-- An attribute the code skips when it looks for the proof: two bytes, which are neither "p=" nor
"m=", and anything without a comma. -/
def Skipped (e : Bytes) : Prop :=
  44 ∉ e ∧ ∃ x y v, e = x :: y :: v ∧ [x, y] ≠ b!"p=" ∧ [x, y] ≠ b!"m="

end Rsasl.Spec
