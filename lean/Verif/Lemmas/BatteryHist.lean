import Verif.Lemmas.Battery
import Verif.Spec.Battery

/-! Battery states reachable from the constructor. -/

namespace Pymgrid

open Module

section
variable {minC maxC maxCh maxDis eff cost : ℚ} {c s : Option ℚ} {i : Nat} {r : Bool} {m : Module}

/-- Battery states reachable from `mkBattery`, relative to the constructor arguments. -/
structure BattAt (minC maxC maxCh maxDis eff cost : ℚ) (i : Nat) (r : Bool) (m : Module) (b : Battery) :
    Prop where
  wf : m.BattWF b
  space : m.actSpace = some ⟨[-maxDis / eff], [maxCh * eff]⟩
  minC : b.minCapacity = minC
  maxC : b.maxCapacity = maxC
  maxCh : b.maxCharge = maxCh
  maxDis : b.maxDischarge = maxDis
  eff : b.efficiency = eff
  cost : b.costCycle = cost
  init : m.initialStep = i
  raise : m.raiseErrors = r

theorem BattAt.charge {b : Battery} (h : BattAt minC maxC maxCh maxDis eff cost i r m b) :
    m.charge? = some b.charge := by simp [charge?, h.wf.kind]

theorem BattAt.start (hm : mkBattery minC maxC maxCh maxDis eff cost none c s i r = .ok m)
    (hg : GoodBattery minC maxC maxCh maxDis m) : ∃ b, BattAt minC maxC maxCh maxDis eff cost i r m b := by
  obtain ⟨b, hk, h1, h2, h3, h4, h5, h6, h7, h8, h9, h10, h11, h12, -, h14, h15, h16, h17, h18, -, h20, -, h22⟩ :=
    mkBattery_inv hm
  obtain ⟨q, hq, hlo, hhi⟩ := hg.start
  have hq' : b.charge = q := by simpa [charge?, hk] using hq
  exact ⟨b, ⟨hk, ⟨by rw [h8]; exact h1, by rw [h8]; exact h2, by rw [h6]; exact hg.maxCh,
    by rw [h7]; exact hg.maxDis, by rw [h5]; exact h3, h10, by rw [h4, hq']; exact hlo,
    by rw [h5, hq']; exact hhi, by rw [h5]; exact h12⟩, h14, h15, h16, h17⟩, h22, h4, h5, h6, h7, h8, h9, h18, h20⟩

theorem BattAt.ofStep {b : Battery} (h : BattAt minC maxC maxCh maxDis eff cost i r m b)
    {d : Dir} {x : ℚ} {m' : Module} {o : StepOut} (hs : m.BattStep b d x m' o) :
    BattAt minC maxC maxCh maxDis eff cost i r m' (b.withCharge (b.chargeAfter d x)) :=
  ⟨hs.wf, hs.space.trans h.space, h.minC, h.maxC, h.maxCh, h.maxDis, h.eff, h.cost,
    hs.init.trans h.init, hs.raise.trans h.raise⟩

theorem BattAt.ofReset {b : Battery} (h : BattAt minC maxC maxCh maxDis eff cost i r m b) :
    BattAt minC maxC maxCh maxDis eff cost i r m.reset.1 b := by
  obtain ⟨m', obs, h1, h2, h3, h4, h5, h6, h7⟩ := h.wf.reset
  rw [h1]
  exact ⟨h2, h6.trans h.space, h.minC, h.maxC, h.maxCh, h.maxDis, h.eff, h.cost, h4.trans h.init,
    h5.trans h.raise⟩

theorem BattAt.assign {b : Battery} (h : BattAt minC maxC maxCh maxDis eff cost i r m b) {q : ℚ}
    (h₁ : minC ≤ q) (h₂ : q ≤ maxC) :
    BattAt minC maxC maxCh maxDis eff cost i r { m with kind := .battery (b.withCharge q) } (b.withCharge q) :=
  ⟨⟨rfl, h.wf.valid.withCharge (by rw [h.minC]; exact h₁) (by rw [h.maxC]; exact h₂), h.wf.ffc, h.wf.prov,
    h.wf.abs, h.wf.dim⟩, h.space, h.minC, h.maxC, h.maxCh, h.maxDis, h.eff, h.cost, h.init, h.raise⟩

theorem BattAt.op {b : Battery} (h : BattAt minC maxC maxCh maxDis eff cost i r m b) (op : MOp)
    (hop : op.isCall) : ∃ b', BattAt minC maxC maxCh maxDis eff cost i r (op.apply m) b' := by
  cases op with
  | step a n =>
    rcases h.wf.step_cases a n with ⟨e, he⟩ | ⟨d, x, m', o, he, hs⟩
    · exact ⟨b, by simpa [MOp.apply, he] using h⟩
    · exact ⟨_, by simpa [MOp.apply, he] using h.ofStep hs⟩
  | reset => exact ⟨b, h.ofReset⟩
  | setSoc v => simp [MOp.isCall] at hop
  | setCharge v => simp [MOp.isCall] at hop

theorem BattAt.ops {b : Battery} (h : BattAt minC maxC maxCh maxDis eff cost i r m b) (ops : List MOp)
    (hops : ∀ op ∈ ops, op.isCall) : ∃ b', BattAt minC maxC maxCh maxDis eff cost i r (runOps m ops) b' := by
  induction ops generalizing m b with
  | nil => exact ⟨b, h⟩
  | cons op ops ih =>
    obtain ⟨b', h'⟩ := h.op op (hops op (by simp))
    exact ih h' (fun o ho => hops o (by simp [ho]))

theorem BattAt.account {b : Battery} (h : BattAt minC maxC maxCh maxDis eff cost i r m b) (ops : List MOp)
    (hops : ∀ op ∈ ops, op.isCall) : ∃ b', BattAt minC maxC maxCh maxDis eff cost i r (runOps m ops) b' ∧
      b'.charge - b.charge =
        eff * totalAbsorbed (outputs m ops) - totalProvided (outputs m ops) / eff := by
  induction ops generalizing m b with
  | nil => exact ⟨b, h, by simp [outputs, totalAbsorbed, totalProvided]⟩
  | cons op ops ih =>
    have hops' : ∀ op ∈ ops, op.isCall := fun o ho => hops o (by simp [ho])
    cases op with
    | step a n =>
      rcases h.wf.step_cases a n with ⟨e, he⟩ | ⟨d, x, m', o, he, hs⟩
      · have hb : BattAt minC maxC maxCh maxDis eff cost i r (MOp.apply m (.step a n)) b := by
          simpa [MOp.apply, he] using h
        obtain ⟨b', h', heq⟩ := ih hb hops'
        exact ⟨b', h', by simp only [outputs, he]; exact heq⟩
      · have hb : BattAt minC maxC maxCh maxDis eff cost i r (MOp.apply m (.step a n))
            (b.withCharge (b.chargeAfter d x)) := by simpa [MOp.apply, he] using h.ofStep hs
        obtain ⟨b', h', heq⟩ := ih hb hops'
        refine ⟨b', h', ?_⟩
        simp only [outputs, he]
        simp only [totalAbsorbed, totalProvided, List.map_cons, List.sum_cons] at heq ⊢
        rw [hs.provided, hs.absorbed]
        have he' := h.eff
        have hne : eff ≠ 0 := by rw [← he']; exact h.wf.valid.eff_pos.ne'
        cases d <;>
          simp only [Battery.withCharge, Battery.chargeAfter, Dir.out, Dir.into, Option.getD_some,
            Option.getD_none, he', zero_add, add_div, mul_add] at heq ⊢ <;> linarith
    | reset =>
      obtain ⟨b', h', heq⟩ := ih (m := MOp.apply m .reset) h.ofReset hops'
      exact ⟨b', h', heq⟩
    | setSoc v => simpa [MOp.isCall] using hops (.setSoc v) (by simp)
    | setCharge v => simpa [MOp.isCall] using hops (.setCharge v) (by simp)

end

end Pymgrid
