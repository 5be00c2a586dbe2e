/-
What may be seen of a mechanism.
-/
import Verif.Model.Mechname
import Verif.Model.Registry
import Verif.Spec.Text

namespace Rsasl.Spec

/-- The name, and whether there is a client and a server. -/
def seen (m : Mechanism) : Bytes × Bool × Bool := (m.name, m.client.isSome, m.server.isSome)

/-- Its name is one that `Mechname::parse` takes. -/
def Named (m : Mechanism) : Prop := Mechname.parse m.name = .ok m.name

end Rsasl.Spec
