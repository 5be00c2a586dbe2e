/-
In which order a SCRAM client may ask for its keys.
-/
import Verif.Spec.ScramExchange

namespace Rsasl.Spec

/-- What happens with the callback when keys are needed; `h` is what happened before and `ctx` the
context of the requests. Cached keys are asked for first. The salted password is asked for if the
callback did not just answer that request, and the password if it did not just answer the request
for the salted password either (with something that is not empty). -/
inductive KeyAsks (env : Env) (h : List Event) (ctx : Provider) : List Event → Prop where
  | cached {es : List Event} (n : ∀ q c, .asked q c ∉ es) :
      KeyAsks env h ctx (.asked .scramCachedPassword ctx :: es)
  | salted {es es' : List Event} (n : ∀ q c, .asked q c ∉ es)
      (no : ∀ v, ¬ Answers .scramCachedPassword v (env.callback h env.sd ctx))
      (n' : ∀ q c, .asked q c ∉ es') :
      KeyAsks env h ctx ((.asked .scramCachedPassword ctx :: es) ++ (.asked .saltedPassword ctx :: es'))
  | password {es es' es'' : List Event} (n : ∀ q c, .asked q c ∉ es)
      (no : ∀ v, ¬ Answers .scramCachedPassword v (env.callback h env.sd ctx))
      (n' : ∀ q c, .asked q c ∉ es')
      (no' : ∀ v, v ≠ [] → ¬ Answers .saltedPassword v
        (env.callback (h ++ (.asked .scramCachedPassword ctx :: es)) env.sd ctx))
      (n'' : ∀ q c, .asked q c ∉ es'') :
      KeyAsks env h ctx ((.asked .scramCachedPassword ctx :: es) ++
        (.asked .saltedPassword ctx :: es') ++ (.asked .password ctx :: es''))

end Rsasl.Spec
