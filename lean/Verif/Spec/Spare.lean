import Verif.Spec.GridSerialize
import Verif.Spec.Sunnier

set_option autoImplicit false

/-! Specification for C93: components that are there but not used. -/

namespace Pymgrid

/-- Fuel that is not burnt is not paid for. -/
def GensetCost.Free : GensetCost → Prop
  | .const _ => True
  | .fn f => f 0 = 0

/-- A component that can stay idle, and the action that makes it do so, normalised (`true`) or not: a battery that is not
    below its minimum capacity, with the transition model of the library, or a genset that starts switched off or can be
    switched off at once. -/
inductive CanIdle : Module → (Bool → Act) → Prop
  | battery {minC maxC maxCh maxDis eff cost : ℚ} {c s : Option ℚ} {i : Nat} {r : Bool} {m : Module} {b : Battery}
      (h : Module.mkBattery minC maxC maxCh maxDis eff cost none c s i r = .ok m) (hk : m.kind = .battery b)
      (hq : minC ≤ b.charge) (hc : 0 ≤ maxCh) (hd : 0 ≤ maxDis) :
      CanIdle m fun n => .num (if n then (maxDis / eff) / (maxDis / eff + maxCh * eff) else 0)
  | genset {rmin rmax : ℚ} {cost : GensetCost} {c1 c2 : ℚ} {S W : Nat} {ab iu : Bool} {i : Nat} {r : Bool} {m : Module}
      (h : Module.mkGenset rmin rmax cost c1 c2 S W ab iu i r = .ok m) (hc : cost.Free) (hw : iu = true → W = 0) :
      CanIdle m fun _ => .arr [0, 0]

/-- A dictionary without one of its names. -/
def without {β : Type} (name : String) (d : List (String × β)) : List (String × β) := d.filter fun x => decide (x.1 ≠ name)

/-- The same call for the microgrid with the additional component, which is told to do nothing. -/
def GOp.withIdle (name : String) (act : Bool → Act) : GOp → GOp
  | .run c n => .run ((name, .seq [act n]) :: c) n
  | .reset => .reset

/-- Both shapers are absent, or the second computes from the other modules what the first does. -/
def Ignoring (name : String) : Option Shaper → Option Shaper → Prop
  | none, none => True
  | some f, some f' => ∀ i c, f' i c = f (without name i) (without name c)
  | _, _ => False

/-- The same result: the same exception or the same reward, done flag, and observations and infos but for those under the
    additional name. -/
inductive SameBut (name : String) : Except Err (Option RunOut) → Except Err (Option RunOut) → Prop
  | error (e : Err) : SameBut name (.error e) (.error e)
  | reset : SameBut name (.ok none) (.ok none)
  | run {o o' : RunOut} (reward : o'.reward = o.reward) (done : o'.done = o.done) (obs : without name o'.obs = o.obs)
      (infos : without name o'.infos = o.infos) : SameBut name (.ok (some o)) (.ok (some o'))

end Pymgrid
