/-
Who a server's application is told the user is.
-/
import Verif.Spec.Talk

namespace Rsasl.Spec

/-- Whenever it was to validate, the application was shown this name as that of the user, and this one as that of the user to act
as. No name to act as and an empty one are the same. -/
def ShownUser (authid : Str) (authzid : Option Str) (log : List Event) : Prop :=
  ∀ ctx, .validated ctx ∈ log → ctx.getRef .authId = some authid ∧ (ctx.getRef .authzId).getD [] = authzid.getD []

/-- The same, and no name to act as is not the same as an empty one. -/
def ShownExactly (authid : Str) (authzid : Option Str) (log : List Event) : Prop :=
  ∀ ctx, .validated ctx ∈ log → ctx.getRef .authId = some authid ∧ ctx.getRef .authzId = authzid

/-- Client and server talk, the one first that is to speak first. The server's log. -/
def serverLog (first : Side) (ws : List (List WResp)) (client server : Party) : List Event :=
  match first with
  | .client => (talk ws none client server).2.2.ses.log
  | .server => (talk ws none server client).2.1.ses.log

end Rsasl.Spec
