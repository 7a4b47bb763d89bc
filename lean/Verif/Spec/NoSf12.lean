import Verif.Spec.Trace
import Verif.Spec.Channel

/-!
# Without SF12: C103

`LDL_DISABLE_SF12` is documented as "prevent SF12 data rates being used" (include/ldl_platform.h:262-274): a
transmission with spreading factor 12 takes four times as long as one with spreading factor 10.
-/

namespace LDL
namespace Spec

/-- The channels leave room for a data rate above 0.  The fixed channel plans always do; in the others every channel
that is defined must allow one, and at least one channel must be in use, in a band of the region. -/
def RoomAboveZero (s : Session) : Prop :=
  s.region = .eu868 ∨ s.region = .eu433 →
    (∀ ch f lo hi, chan s ch = some (f, lo, hi) → 0 < hi) ∧
    ∃ ch f lo hi b, ¬ Masked s ch ∧ chan s ch = some (f, lo, hi) ∧ band s.region f = some b

/-- Nothing that is transmitted has spreading factor 12. -/
def NoSf12 (l : List Event) : Prop := ∀ x ∈ transmitted l, x.1.sf ≠ 12

end Spec
end LDL
