/-
Concrete environments and (toy) dependencies, for examples and counterexamples.
-/
import Verif.Model.Link
import Verif.Spec.Env

namespace Rsasl

/-- An environment for examples: answers the given properties and validates everything. -/
def exampleEnv (pvs : List PV) : Env :=
  ⟨fun _ _ _ => answerAll pvs, fun _ _ _ => .ret (.ok ()), fun _ => none, 0,
    ⟨⟨b!"X", 0, .client⟩, .client⟩⟩

/-- A "hash" of one byte. -/
def toyDigest : Scram.Digest where
  outLen := 1
  hash x := [x.foldl (fun a b => a * 3 + b) 7]
  hmac k x := [(k ++ x).foldl (fun a b => a * 5 + b) 11]
  pbkdf2 p s i := [(p ++ s).foldl (fun a b => a * 7 + b) (UInt8.ofNat i.toNat)]
  hash_length _ := rfl
  hmac_length _ _ := rfl
  pbkdf2_length _ _ _ := rfl

/-- A GSS-API library whose contexts are complete at once and which wraps by doing nothing. -/
def toyGss : Gssapi.Lib where
  Ctx := Unit
  newClient _ := .ok ()
  newServer := .ok ()
  clientStep _ _ := (.ok none, ())
  serverStep _ _ := (.ok none, ())
  isComplete _ := true
  flags _ := .ok ⟨true, true, true⟩
  wrap _ _ b := (.ok b, ())
  unwrap _ b := (.ok b, ())

/-- Dependencies for examples. -/
def toyDeps : Deps where
  digest _ := toyDigest
  prep s := some s
  json := ⟨fun _ => [b!"{}"], fun _ => none⟩
  gss := toyGss

end Rsasl
