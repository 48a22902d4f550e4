import Verif.Spec.History

namespace Pymgrid

/-- Parameters of a battery in the sense of C01: non-negative limits and an initial charge inside the
    window. (`0 < efficiency ≤ 1` is checked by the constructor.) -/
structure GoodBattery (minC maxC maxCh maxDis : ℚ) (m : Module) : Prop where
  maxCh : 0 ≤ maxCh
  maxDis : 0 ≤ maxDis
  start : ∃ q, m.charge? = some q ∧ minC ≤ q ∧ q ≤ maxC

end Pymgrid
