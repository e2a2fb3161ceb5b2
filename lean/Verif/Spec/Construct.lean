import Verif.Model.Codec
/-!
# Specification vocabulary for the constructor of blueprints
-/
set_option autoImplicit false

namespace Verif.Spec

/-- The same world with other flags `strict` of the blueprints. -/
def withStrict (w : World) (f : BpId → Bool) : World := { w with bp := fun b => { w.bp b with strict := f b } }

end Verif.Spec
