import Verif.Go.Unicode

/-! The bundled languages with rules for several words. -/

namespace Verif.Spec.Words

/-- The bundled languages with rules for several words at once: in Welsh `{@} mh` becomes `m h`, in Dutch `de ` at the
beginning loses its space. -/
def spanning : List Bytes := [str "cym", str "nld", str "wlm"]

end Verif.Spec.Words
