import Verif.Lemmas.MakableCheck
import Verif.Lemmas.KernelRfl
import Verif.Model.Package

/-! # Values of the classes of the package can be made -/

namespace Asn1.Pkg
open Asn1 Spec

theorem pkg_makable (K : Codecs) : Makable (env K) (· < size) := makableB_sound (by kernel_rfl)

end Asn1.Pkg
