/-
How a refusal by an OAuth server reaches the client's application, told by what the callbacks do.
-/
import Verif.Spec.SimpleMeets

namespace Rsasl.Spec

/-- What an action with the value `v` for `p` fails with: the callback's own error (a return early is none), else it
fails only if the callback did not take the value. -/
def handedOver (p : Property) (v : p.Value) (prog : CbProg) : Option SessionError :=
  let t := reaction p (some v) prog
  let untaken : Option SessionError := if t.1 then none else some (.callbackError (.noCallback p))
  match t.2 with
  | .ok () => untaken
  | .error e => if e = .callbackError .earlyReturn then untaken else some e

/-- What happened meanwhile. -/
def handedLog (p : Property) (v : p.Value) (prog : CbProg) : List Event :=
  .notified p .empty :: if (reaction p (some v) prog).1 then [.delivered p v] else []

/-- The second step of an OAuth client. Nothing at all is good news. Everything else is handed to the callback, if it
can be read; then the client has an empty message to send. It is over in any case. -/
def clientTold (p : Property) (read : Bytes → Option p.Value) (unreadable : SessionError) (env : Env)
    (s : Session OAuthCState) (input : Option Bytes) : Reply State × Session OAuthCState :=
  let prog := env.callback s.log env.sd .empty
  if input = none ∨ input = some [] then (⟨.ok (.finished .no), []⟩, { s with st := .done })
  else
    match input.bind read with
    | none => (⟨.err unreadable, []⟩, { s with st := .done })
    | some v =>
      (⟨match handedOver p v prog with | none => .ok (.finished .yes) | some e => .err e, []⟩,
        { s with st := .done, log := s.log ++ handedLog p v prog })

/-- A client starts, the server refuses it, the client takes note and has an empty message to send, with which the
server finishes. -/
def Refused (cm sm : Mech) (cenv senv : Env) (c : Session cm.S) (s : Session sm.S) (w : Fin 4 → List WResp) : Prop :=
  ∃ message c' notice s' c'',
    passed (c.step cm cenv ⟨none, w 0⟩) = some (message, c') ∧
    s.step sm senv ⟨some message, w 1⟩ = (⟨.ok .running, notice⟩, s') ∧
    c'.step cm cenv ⟨some notice, w 2⟩ = (⟨.ok (.finished .yes), []⟩, c'') ∧
    (s'.step sm senv ⟨some [], w 3⟩).1 = ⟨.ok (.finished .no), []⟩

/-- The server's callback refuses the token and gives `v` as the reason, and then the rest is found to be valid. -/
def TokenRefused (p : Property) (v : p.Value) (senv : Env) (s : Session OAuthSState) (ctx : Provider) : Prop :=
  settledNeed p fine (senv.callback s.log senv.sd ctx) = .ok v ∧
    Validates senv s (settledLog p fine ctx (senv.callback s.log senv.sd ctx)) ctx

/-- XOAUTH2: the client can start, the server's callback gives a reason that is not empty, and the client's takes it. -/
def XOAuth2Refused (cenv senv : Env) (c : Session OAuthCState) (s : Session OAuthSState) : Prop :=
  let t := compose (fun l => cenv.callback l cenv.sd .empty) c.log xoauth2Phrases
  t.result = .ok () ∧ ∃ user token reason,
    t.out = xoauth2Message user token ∧ '\x01' ∉ user ∧ reason ≠ [] ∧
    TokenRefused .xoauth2Validate (.error reason) senv s (.chain [⟨.authId, user⟩, ⟨.oauthBearerToken, token⟩]) ∧
    handedOver .xoauth2Error reason (cenv.callback (c.log ++ t.log) cenv.sd .empty) = none

/-- OAUTHBEARER: the same, with a reason that is sent as JSON and that the client can read. -/
def BearerRefused (json : OAuthBearer.Json) (cenv senv : Env) (c : Session OAuthCState) (s : Session OAuthSState) : Prop :=
  let t := compose (fun l => cenv.callback l cenv.sd .empty) c.log oauthbearerPhrases
  t.result = .ok () ∧ ∃ authzid token fields reason heard,
    OAuthWire t.out authzid token fields ∧ (json.ser reason).flatten ≠ [] ∧ json.de (json.ser reason).flatten = some heard ∧
    TokenRefused .oauthBearerValidate (.error reason) senv s (bearerOffer authzid token fields) ∧
    handedOver .oauthBearerErrored heard (cenv.callback (c.log ++ t.log) cenv.sd .empty) = none

end Rsasl.Spec
