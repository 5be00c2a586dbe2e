/-
The steps of a GSSAPI exchange before the last one.
-/
import Verif.Spec.Settled
import Verif.Spec.GssLayer

namespace Rsasl.Spec

open Gssapi

instance allowsDec (r : UInt8) (l : Layer) : Decidable (Allows r l) := by unfold Allows; infer_instance

instance supportsDec (fl : Flags) (l : Layer) : Decidable (Supports fl l) := by
  cases l <;> unfold Supports <;> infer_instance

/-- What a client has against a set of acceptable layers, given the flags of its context. -/
def objection (flags : Except Nat Flags) (a : SecurityLayer) : Option SessionError :=
  match flags with
  | .error n => some (.mechanismError (.gss n))
  | .ok fl =>
    if a.bits = 0 ∨ Allows a.bits .none ∨ (Allows a.bits .integrity ∧ fl.integ = true) ∨
        Supports fl .confidentiality then none
    else some (.mechanismError .gssBadContext)

/-- No answer means that all layers are acceptable. -/
def orAll : Option SecurityLayer → SecurityLayer
  | some a => a
  | none => ⟨7⟩

/-- How the step of a client goes on once it has a context: the reply, the state after it and what happened.
`prog` is what the callback does when it is asked for the acceptable layers. -/
inductive ClientGoesOn (lib : Lib) (ctx : lib.Ctx) (prog : CbProg) (sched : List WResp) (input : Option Bytes) :
    Reply State → CState lib → List Event → Prop where
  | refused {n : Nat} (h : (lib.clientStep ctx input).1 = .error n) :
      ClientGoesOn lib ctx prog sched input ⟨.err (.mechanismError (.gss n)), []⟩ .errored []
  | unwritten {t : Option Bytes} {e : IoErr} {w : Writer} (h : (lib.clientStep ctx input).1 = .ok t)
      (hw : Writer.writeAll ⟨[], sched⟩ (t.getD []) = (.error e, w)) :
      ClientGoesOn lib ctx prog sched input ⟨.err (.io e), w.out⟩ .errored []
  | incomplete {t : Option Bytes} {w : Writer} (h : (lib.clientStep ctx input).1 = .ok t)
      (hw : Writer.writeAll ⟨[], sched⟩ (t.getD []) = (.ok (), w))
      (hc : lib.isComplete (lib.clientStep ctx input).2 = false) :
      ClientGoesOn lib ctx prog sched input ⟨.ok .running, w.out⟩ (.pending (lib.clientStep ctx input).2) []
  | failed {t : Option Bytes} {w : Writer} {e : SessionError} (h : (lib.clientStep ctx input).1 = .ok t)
      (hw : Writer.writeAll ⟨[], sched⟩ (t.getD []) = (.ok (), w))
      (hc : lib.isComplete (lib.clientStep ctx input).2 = true)
      (ha : settled .gssSecurityLayer (objection (lib.flags (lib.clientStep ctx input).2)) prog = .error e) :
      ClientGoesOn lib ctx prog sched input ⟨.err e, w.out⟩ .errored
        (settledLog .gssSecurityLayer (objection (lib.flags (lib.clientStep ctx input).2)) .empty prog)
  | complete {t : Option Bytes} {w : Writer} {a : Option SecurityLayer} (h : (lib.clientStep ctx input).1 = .ok t)
      (hw : Writer.writeAll ⟨[], sched⟩ (t.getD []) = (.ok (), w))
      (hc : lib.isComplete (lib.clientStep ctx input).2 = true)
      (ha : settled .gssSecurityLayer (objection (lib.flags (lib.clientStep ctx input).2)) prog = .ok a) :
      ClientGoesOn lib ctx prog sched input ⟨.ok .running, w.out⟩ (.last (lib.clientStep ctx input).2 (orAll a))
        (settledLog .gssSecurityLayer (objection (lib.flags (lib.clientStep ctx input).2)) .empty prog)

/-- The first step of a client; `asks log` is what the callback does when it is asked after this history. -/
inductive ClientBegins (lib : Lib) (asks : List Event → CbProg) (sched : List WResp) (input : Option Bytes)
    (log : List Event) : Reply State → CState lib → List Event → Prop where
  | nameless {e : SessionError} (h : settledNeed .gssService (fun _ => none) (asks log) = .error e) :
      ClientBegins lib asks sched input log ⟨.err e, []⟩ .errored
        (settledLog .gssService (fun _ => none) .empty (asks log))
  | placeless {s : Str} {e : SessionError} {l : List Event}
      (h : settledNeed .gssService (fun _ => none) (asks log) = .ok s)
      (hl : l = settledLog .gssService (fun _ => none) .empty (asks log))
      (hh : settledNeed .hostname (fun _ => none) (asks (log ++ l)) = .error e) :
      ClientBegins lib asks sched input log ⟨.err e, []⟩ .errored
        (l ++ settledLog .hostname (fun _ => none) .empty (asks (log ++ l)))
  | unmade {s host : Str} {l l' : List Event} {n : Nat}
      (h : settledNeed .gssService (fun _ => none) (asks log) = .ok s)
      (hl : l = settledLog .gssService (fun _ => none) .empty (asks log))
      (hh : settledNeed .hostname (fun _ => none) (asks (log ++ l)) = .ok host)
      (hl' : l' = l ++ settledLog .hostname (fun _ => none) .empty (asks (log ++ l)))
      (hn : lib.newClient (Str.bytes (s ++ c!"@" ++ host)) = .error n) :
      ClientBegins lib asks sched input log ⟨.err (.mechanismError (.gss n)), []⟩ .errored l'
  | made {s host : Str} {l l' l'' : List Event} {ctx : lib.Ctx} {r : Reply State} {st : CState lib}
      (h : settledNeed .gssService (fun _ => none) (asks log) = .ok s)
      (hl : l = settledLog .gssService (fun _ => none) .empty (asks log))
      (hh : settledNeed .hostname (fun _ => none) (asks (log ++ l)) = .ok host)
      (hl' : l' = l ++ settledLog .hostname (fun _ => none) .empty (asks (log ++ l)))
      (hn : lib.newClient (Str.bytes (s ++ c!"@" ++ host)) = .ok ctx)
      (hg : ClientGoesOn lib ctx (asks (log ++ l')) sched input r st l'') :
      ClientBegins lib asks sched input log r st (l' ++ l'')

/-- `r` is what is left of the layers `a` with a context of these flags, as the server sees it. -/
def Leaves (fl : Flags) (a r : UInt8) : Prop :=
  ∀ i, r.toNat.testBit i = true ↔ a.toNat.testBit i = true ∧ (i = 1 → fl.integ = true) ∧
    (i = 2 → fl.mutualAuth = true ∧ fl.conf = true)

/-- The server's offer of these layers: with the largest size of messages if any of them has a use for it. -/
def offerOf (r : UInt8) : Bytes :=
  if Allows r .integrity ∨ Allows r .confidentiality then [r, 255, 255, 255] else [r, 0, 0, 0]

/-- The step in which a server sends its offer. -/
inductive ServerOffers (lib : Lib) (ctx : lib.Ctx) (offered : SecurityLayer) (sched : List WResp) :
    Reply State → SState lib → Prop where
  | unwrapped {n : Nat} (h : (lib.wrap ctx false (offerOf offered.bits)).1 = .error n) :
      ServerOffers lib ctx offered sched ⟨.err (.mechanismError (.gss n)), []⟩ .errored
  | unwritten {t : Bytes} {e : IoErr} {w : Writer} (h : (lib.wrap ctx false (offerOf offered.bits)).1 = .ok t)
      (hw : Writer.writeAll ⟨[], sched⟩ t = (.error e, w)) :
      ServerOffers lib ctx offered sched ⟨.err (.io e), w.out⟩ .errored
  | sent {t : Bytes} {w : Writer} (h : (lib.wrap ctx false (offerOf offered.bits)).1 = .ok t)
      (hw : Writer.writeAll ⟨[], sched⟩ t = (.ok (), w)) :
      ServerOffers lib ctx offered sched ⟨.ok .running, w.out⟩
        (.final (lib.wrap ctx false (offerOf offered.bits)).2 offered)

/-- How the step of a server goes on once it has a context. -/
inductive ServerGoesOn (lib : Lib) (ctx : lib.Ctx) (prog : CbProg) (sched : List WResp) :
    Option Bytes → Reply State → SState lib → List Event → Prop where
  | nothing : ServerGoesOn lib ctx prog sched none ⟨.err .inputDataRequired, []⟩ .errored []
  | refused {i : Bytes} {n : Nat} (h : (lib.serverStep ctx i).1 = .error n) :
      ServerGoesOn lib ctx prog sched (some i) ⟨.err (.mechanismError (.gss n)), []⟩ .errored []
  /-- an incomplete context is lost -/
  | incomplete {i t : Bytes} {w : Writer} (h : (lib.serverStep ctx i).1 = .ok (some t))
      (hc : lib.isComplete (lib.serverStep ctx i).2 = false)
      (hw : Writer.writeAll ⟨[], sched⟩ t = (.ok (), w)) :
      ServerGoesOn lib ctx prog sched (some i) ⟨.ok .running, w.out⟩ .errored []
  | incomplete_unwritten {i t : Bytes} {w : Writer} {e : IoErr} (h : (lib.serverStep ctx i).1 = .ok (some t))
      (hc : lib.isComplete (lib.serverStep ctx i).2 = false)
      (hw : Writer.writeAll ⟨[], sched⟩ t = (.error e, w)) :
      ServerGoesOn lib ctx prog sched (some i) ⟨.err (.io e), w.out⟩ .errored []
  | incomplete_silent {i : Bytes} (h : (lib.serverStep ctx i).1 = .ok none)
      (hc : lib.isComplete (lib.serverStep ctx i).2 = false) :
      ServerGoesOn lib ctx prog sched (some i) ⟨.err .mechanismDone, []⟩ .errored []
  | failed {i : Bytes} {t : Option Bytes} {e : SessionError} (h : (lib.serverStep ctx i).1 = .ok t)
      (hc : lib.isComplete (lib.serverStep ctx i).2 = true)
      (ha : settled .gssSecurityLayer (fun _ => none) prog = .error e) :
      ServerGoesOn lib ctx prog sched (some i) ⟨.err e, []⟩ .errored
        (settledLog .gssSecurityLayer (fun _ => none) .empty prog)
  | flagless {i : Bytes} {t : Option Bytes} {a : Option SecurityLayer} {n : Nat}
      (h : (lib.serverStep ctx i).1 = .ok t) (hc : lib.isComplete (lib.serverStep ctx i).2 = true)
      (ha : settled .gssSecurityLayer (fun _ => none) prog = .ok a)
      (hf : lib.flags (lib.serverStep ctx i).2 = .error n) :
      ServerGoesOn lib ctx prog sched (some i) ⟨.err (.mechanismError (.gss n)), []⟩ .errored
        (settledLog .gssSecurityLayer (fun _ => none) .empty prog)
  | layerless {i : Bytes} {t : Option Bytes} {a : Option SecurityLayer} {fl : Flags}
      (h : (lib.serverStep ctx i).1 = .ok t) (hc : lib.isComplete (lib.serverStep ctx i).2 = true)
      (ha : settled .gssSecurityLayer (fun _ => none) prog = .ok a)
      (hf : lib.flags (lib.serverStep ctx i).2 = .ok fl) (hl : Leaves fl (orAll a).bits 0) :
      ServerGoesOn lib ctx prog sched (some i) ⟨.err (.mechanismError .gssBadContext), []⟩ .errored
        (settledLog .gssSecurityLayer (fun _ => none) .empty prog)
  | answered {i t : Bytes} {a : Option SecurityLayer} {fl : Flags} {r : SecurityLayer} {w : Writer}
      (h : (lib.serverStep ctx i).1 = .ok (some t)) (hc : lib.isComplete (lib.serverStep ctx i).2 = true)
      (ha : settled .gssSecurityLayer (fun _ => none) prog = .ok a)
      (hf : lib.flags (lib.serverStep ctx i).2 = .ok fl) (hl : Leaves fl (orAll a).bits r.bits) (hr : r.bits ≠ 0)
      (hw : Writer.writeAll ⟨[], sched⟩ t = (.ok (), w)) :
      ServerGoesOn lib ctx prog sched (some i) ⟨.ok .running, w.out⟩ (.installed (lib.serverStep ctx i).2 r)
        (settledLog .gssSecurityLayer (fun _ => none) .empty prog)
  /-- the context is kept, the token is not sent again -/
  | answered_unwritten {i t : Bytes} {a : Option SecurityLayer} {fl : Flags} {r : SecurityLayer} {w : Writer}
      {e : IoErr}
      (h : (lib.serverStep ctx i).1 = .ok (some t)) (hc : lib.isComplete (lib.serverStep ctx i).2 = true)
      (ha : settled .gssSecurityLayer (fun _ => none) prog = .ok a)
      (hf : lib.flags (lib.serverStep ctx i).2 = .ok fl) (hl : Leaves fl (orAll a).bits r.bits) (hr : r.bits ≠ 0)
      (hw : Writer.writeAll ⟨[], sched⟩ t = (.error e, w)) :
      ServerGoesOn lib ctx prog sched (some i) ⟨.err (.io e), w.out⟩ (.installed (lib.serverStep ctx i).2 r)
        (settledLog .gssSecurityLayer (fun _ => none) .empty prog)
  | offers {i : Bytes} {a : Option SecurityLayer} {fl : Flags} {r : SecurityLayer} {rep : Reply State}
      {st : SState lib}
      (h : (lib.serverStep ctx i).1 = .ok none) (hc : lib.isComplete (lib.serverStep ctx i).2 = true)
      (ha : settled .gssSecurityLayer (fun _ => none) prog = .ok a)
      (hf : lib.flags (lib.serverStep ctx i).2 = .ok fl) (hl : Leaves fl (orAll a).bits r.bits) (hr : r.bits ≠ 0)
      (ho : ServerOffers lib (lib.serverStep ctx i).2 r sched rep st) :
      ServerGoesOn lib ctx prog sched (some i) rep st
        (settledLog .gssSecurityLayer (fun _ => none) .empty prog)

end Rsasl.Spec
