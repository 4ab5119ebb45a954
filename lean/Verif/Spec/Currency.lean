import Verif.Reports

/-!
# Giving all amounts of money in another unit

`times k` multiplies every amount of money in an object by `k`, and changes nothing else: names, dates, accounts, rates, durations, schedules stay.
-/
namespace Auxi.Business.Spec
open Business Reports

/-- The amounts of an activity: a basic activity's amount; a loan's amount, monthly payment and outstanding balance.  The interest rate is no amount of money. -/
def Kind.times (k : ℚ) : Kind → Kind
  | .basic amount dt cr => .basic (k * amount) dt cr
  | .loan bank loan interest amount rate payment duration months left => .loan bank loan interest (k * amount) rate (k * payment) duration months (k * left)

/-- The amounts of an activity. -/
def Activity.times (k : ℚ) (a : Activity) : Activity := { a with kind := Kind.times k a.kind }

/-- The amount of a transaction. -/
def Tx.times (k : ℚ) (t : Tx) : Tx := { t with amount := k * t.amount }

mutual
/-- The amounts of the activities of a component and of its sub components. -/
def Component.times (k : ℚ) : Component → Component
  | ⟨n, d, pp, p, cs, as⟩ => ⟨n, d, pp, p, componentsTimes k cs, as.map (Activity.times k)⟩
/-- The amounts of the activities of components. -/
def componentsTimes (k : ℚ) : List Component → List Component
  | [] => []
  | c :: cs => Component.times k c :: componentsTimes k cs
end

/-- The amounts of an entity: those of its components and of its ledger. -/
def Entity.times (k : ℚ) (e : Entity) : Entity := { e with components := componentsTimes k e.components, transactions := e.transactions.map (Tx.times k) }

/-- The amounts of a model. -/
def Model.times (k : ℚ) (m : Model) : Model := { m with entities := m.entities.map (Entity.times k) }

/-- The amount of a transaction as the reports see it. -/
def RTx.times (k : ℚ) (t : RTx) : RTx := { t with amount := k * t.amount }

/-- The amounts in the cells of a table. -/
def Cell.times (k : ℚ) : Cell → Cell
  | .money q => .money (k * q)
  | .paren q => .paren (k * q)
  | c => c

/-- The amounts in a table. -/
def tableTimes (k : ℚ) (t : Table) : Table := t.map (·.map (Cell.times k))

end Auxi.Business.Spec
