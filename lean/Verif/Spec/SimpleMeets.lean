/-
When a client and a server of one of the simple mechanisms come to an agreement, told by what the callbacks do.
-/
import Verif.Spec.ScramMeets
import Verif.Props.Plain
import Verif.Props.OAuthGrammar

namespace Rsasl.Spec

/-- The client's message makes the server finish. -/
def Accepted (cm sm : Mech) (cenv senv : Env) (c : Session cm.S) (s : Session sm.S) (w w' : List WResp) : Prop :=
  ∃ message c', passed (c.step cm cenv ⟨none, w⟩) = some (message, c') ∧
    (s.step sm senv ⟨some message, w'⟩).1.res = .ok (.finished .no)

/-- The server asks for the name, then for the password. -/
def loginExchange (cenv senv : Env) (c : Session Login.CState) (s : Session Login.SState) (w : Fin 5 → List WResp) :
    Option (Session Login.CState × Session Login.SState) :=
  (passed (s.step Login.server senv ⟨none, w 0⟩)).bind fun (m₁, s) =>
  (passed (c.step Login.client cenv ⟨some m₁, w 1⟩)).bind fun (m₂, c) =>
  (passed (s.step Login.server senv ⟨some m₂, w 2⟩)).bind fun (m₃, s) =>
  (passed (c.step Login.client cenv ⟨some m₃, w 3⟩)).bind fun (m₄, c) =>
  (passed (s.step Login.server senv ⟨some m₄, w 4⟩)).map fun (_, s) => (c, s)

/-- The validate callback accepts what it is offered. -/
def Validates {S : Type} (env : Env) (s : Session S) (log : List Event) (ctx : Provider) : Prop :=
  returned env.vtag s.slot.isNone (env.validate (s.log ++ log) env.sd ctx) = .ok ()

/-- An optional text, as it stands in the message: the first answer if there is no objection to it. -/
def optionalText (p : Property) (toStr : p.Value → Str) (objection : p.Value → Option SessionError) (prog : CbProg) : Str :=
  match firstAnswer p prog with
  | none => []
  | some v => if objection v = none then toStr v else []

/-- PLAIN: the callback makes no trouble about an authorization name, has a name and a password, both can be prepared,
and the server's accepts them. -/
def PlainAgree (prep : Str → Option Str) (cenv senv : Env) (c s : Session Unit) : Prop :=
  let asks l := cenv.callback l cenv.sd .empty
  let l₁ := settledLog .authzId objectionNul .empty (asks c.log)
  let l₂ := l₁ ++ settledLog .authId objectionName .empty (asks (c.log ++ l₁))
  ∃ optional name password authid prepared,
    settled .authzId objectionNul (asks c.log) = .ok optional ∧
    settledNeed .authId objectionName (asks (c.log ++ l₁)) = .ok name ∧
    settledNeed .password objectionPassword (asks (c.log ++ l₂)) = .ok password ∧
    prep name = some authid ∧ authid ≠ [] ∧ PreparedPassword prep password prepared ∧ prepared ≠ [] ∧
    Validates senv s [] (.chain [⟨.authId, authid⟩, ⟨.password, prepared⟩,
      ⟨.authzId, optionalText .authzId id objectionNul (asks c.log)⟩])

/-- LOGIN: the callback has a name and a password and the server's accepts them. -/
def LoginAgree (cenv senv : Env) (c : Session Login.CState) (s : Session Login.SState) : Prop :=
  let asks l := cenv.callback l cenv.sd .empty
  ∃ name password,
    settledNeed .authId fine (asks c.log) = .ok name ∧
    settledNeed .password fine (asks (c.log ++ settledLog .authId fine .empty (asks c.log))) = .ok password ∧
    Validates senv s [] (.chain [⟨.authId, name⟩, ⟨.password, password⟩])

/-- EXTERNAL and ANONYMOUS: one optional text, accepted by the server's callback. -/
def TextAgree (p : Property) (toStr : p.Value → Str) (offer : Str → Provider) (cenv senv : Env) (c s : Session Unit) : Prop :=
  let asks l := cenv.callback l cenv.sd .empty
  (∃ optional, settled p fine (asks c.log) = .ok optional) ∧
    Validates senv s [] (offer (optionalText p toStr fine (asks c.log)))

/-- The server's callback says that the token is fine, and then validates. -/
def TokenTaken (p : Property) (fineToken : p.Value) (senv : Env) (s : Session OAuthSState) (ctx : Provider) : Prop :=
  settledNeed p fine (senv.callback s.log senv.sd ctx) = .ok fineToken ∧
    Validates senv s (settledLog p fine ctx (senv.callback s.log senv.sd ctx)) ctx

/-- XOAUTH2: the callback has a name and a token, and the server's takes what it reads in the message. -/
def XOAuth2Agree (cenv senv : Env) (c : Session OAuthCState) (s : Session OAuthSState) : Prop :=
  let asks l := cenv.callback l cenv.sd .empty
  ∃ name token user read,
    settledNeed .authId fine (asks c.log) = .ok name ∧
    settledNeed .oauthBearerToken fine (asks (c.log ++ settledLog .authId fine .empty (asks c.log))) = .ok token ∧
    xoauth2Message name token = xoauth2Message user read ∧ '\x01' ∉ user ∧
    TokenTaken .xoauth2Validate (.ok ()) senv s (.chain [⟨.authId, user⟩, ⟨.oauthBearerToken, read⟩])

/-- OAUTHBEARER: the callback lets the client write a message, and the server's takes what it reads in it. -/
def BearerAgree (cenv senv : Env) (c : Session OAuthCState) (s : Session OAuthSState) : Prop :=
  let t := compose (fun l => cenv.callback l cenv.sd .empty) c.log oauthbearerPhrases
  t.result = .ok () ∧ ∃ authzid token fields, OAuthWire t.out authzid token fields ∧
    TokenTaken .oauthBearerValidate (.ok ()) senv s (bearerOffer authzid token fields)

end Rsasl.Spec
