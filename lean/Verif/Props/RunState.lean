import Verif.Proofs.RunCalendar
import Verif.Props.Run
/-! # Runs that raise and the end of the calendar: C127, C128 -/
namespace Auxi.RunState.Props
open Auxi.RunState Business Time Calendar Ledger Business.Spec

/-! ## Sample models -/

/-- An activity that credits an account the chart does not have. -/
def orphan : Activity := newBasic "Fees".toList "Bank/Default".toList "Sales/Fees".toList 100 dtMin dtMax 1 none

/-- An entity whose only activity uses the missing account. -/
def entF : Entity := { Entity.new "Plant".toList (Chart.new "GL".toList) with
  components := [{ (Component.new "Office".toList none) with activities := [orphan] }] }

/-- Two sound entities around one whose first year end raises; monthly clock, 30 periods. -/
def modF : Model := ⟨"M".toList, Business.Props.clkM, 30, [Business.Props.ent0, entF, Business.Props.ent0]⟩

/-! ## C127: dates -/

/-- **C127 (the calendar).** The points of time a run can be given are those of the years 1 to 9999. -/
theorem C127_calendar (t : Int) : inCalendar t = true ↔ 1 ≤ year t ∧ year t ≤ 9999 := by
  rw [inCalendar_iff]
  constructor
  · rintro ⟨h1, h2⟩
    have a := year_le h1
    have b := year_le h2
    have ea : year dtMin = 1 := by decide
    have eb : year dtMax = 9999 := by decide
    omega
  · rintro ⟨h1, h2⟩
    refine ⟨?_, le_dtMax_of_year h2⟩
    by_contra hc
    have h3 : t ≤ -1 := by
      have : dtMin = 0 := rfl
      omega
    have a := year_le h3
    have ea : year (-1) = 0 := by decide
    omega

example : inCalendar (mkDateTime 9999 12 31 86399999999) = true ∧ inCalendar (mkDateTime 9999 12 31 86400000000) = false := by
  decide +kernel

/-- **C127.** A run that raises nothing does what it would do in a calendar without end. -/
theorem C127_success (m : Model) (h : (runModel m).err = none) : m.run = .ok (runModel m).val := runModel_ok h

example : (runModel Business.Props.mod0).err = none := by decide +kernel

/-- **C127.** If a run starts in the calendar and its horizon lies before the year 9999, no date raises: the outcome is
that of a calendar without end, exception for exception. -/
theorem C127_before_9999 (m : Model) (h1 : dtMin ≤ m.clock.start) (h2 : year (m.clock.atIx m.periodCount) ≤ 9998) :
    m.run = match (runModel m).err with
      | none => .ok (runModel m).val
      | some e => .error e := by
  split
  · rename_i h; exact runModel_ok h
  · rename_i e h; exact (runModel_early ⟨h1, h2⟩).2 e h

example : dtMin ≤ modF.clock.start ∧ year (modF.clock.atIx modF.periodCount) ≤ 9998 ∧
    (runModel modF).err = some .indexError := by decide +kernel

/-- **C127.** Then every transaction of every ledger, also after a run that raised, lies between the start of the run and
its horizon. -/
theorem C127_tx_dates (m : Model) (h1 : dtMin ≤ m.clock.start) (h2 : year (m.clock.atIx m.periodCount) ≤ 9998)
    (e : Entity) (he : e ∈ (runModel m).val.entities) (t : Tx) (ht : t ∈ e.transactions) :
    m.clock.start ≤ t.date ∧ t.date < m.clock.atIx m.periodCount :=
  ((runModel_early ⟨h1, h2⟩).1 e he).dates t ht

example : (runModel modF).val.entities.map (fun e => e.transactions.length) = [17, 13, 13] := by decide +kernel

/-- **C127 is false of the code in the last year of the calendar.** Every run that starts in the year 9999 raises
`ValueError`, although none of its periods leaves the calendar, and every ledger keeps what it contained before. -/
theorem C127_last_year_violated (m : Model) (h1 : year m.clock.start = 9999) (h2 : m.clock.atIx m.periodCount ≤ dtMax)
    (h3 : m.entities ≠ []) :
    (runModel m).err = some .valueError ∧
    (runModel m).val.entities.map Entity.transactions = m.entities.map Entity.transactions := by
  have hlo : dtMin ≤ m.clock.start := by
    by_contra hc
    have hy := year_le (s := m.clock.start) (t := dtMin) (by omega)
    have : year dtMin = 1 := by decide
    omega
  have hn : inCalendar (m.clock.atIx m.periodCount) = true :=
    (inCalendar_iff _).2 ⟨Int.le_trans hlo (Early.start_le (n := 0) _), h2⟩
  have e1 : dateAt m.clock.reset (m.periodCount : Nat) = .ok (m.clock.atIx m.periodCount) := dateAt_in hn
  have e2 : plusYear m.clock.reset.start = .error .valueError := by
    unfold plusYear
    rw [if_neg]
    intro hc
    have h := ((inCalendar_iff _).1 hc).2
    have h' := year_le h
    rw [year_addYears] at h'
    have : year dtMax = 9999 := by decide
    have h4 : m.clock.reset.start = m.clock.start := rfl
    rw [h4, h1, this] at h'
    omega
  have key : ∀ e, prepareEntity m.clock.reset m.periodCount e =
      ⟨{ e with periodCount := m.periodCount, execYearEnd := m.clock.atIx m.periodCount, prevYearEnd := m.clock.start }, some .valueError⟩ := by
    intro e; unfold prepareEntity; rw [e1]; dsimp only; rw [e2]; rfl
  cases hm : m.entities with
  | nil => exact absurd hm h3
  | cons e es =>
    have hp : prepareModel m = ⟨{ m with clock := m.clock.reset, entities :=
        { e with periodCount := m.periodCount, execYearEnd := m.clock.atIx m.periodCount, prevYearEnd := m.clock.start } :: es }, some .valueError⟩ := by
      unfold prepareModel
      simp only [hm, each, key]
    unfold runModel
    rw [hp]
    exact ⟨rfl, rfl⟩

/-- The hypotheses are met by half a year from New Year 9999; the calendar without end has an outcome. -/
def mod9999 : Model := ⟨"M".toList, Clock.new (mkDateTime 9999 1 1 0) .month 1, 6, [Business.Props.ent0]⟩

example : year mod9999.clock.start = 9999 ∧ mod9999.clock.atIx mod9999.periodCount ≤ dtMax ∧ mod9999.entities ≠ [] ∧
    (mod9999.run).isOk = true := ⟨by decide +kernel, by decide +kernel, by simp [mod9999], by decide +kernel⟩

/-! ## C128: runs that raised -/

theorem runModel_eq (m : Model) : runModel m = match prepareModel m with
  | ⟨p, some e⟩ => ⟨p, some e⟩
  | ⟨p, none⟩ => runPrepared p := rfl

/-- **C128.** Running a model again, whether the last run raised or not, has the same outcome and leaves the same model. -/
theorem C128_repeat (m : Model) : runModel (runModel m).val = runModel m := by
  rw [runModel_eq, prepareModel_after_run, ← runModel_eq]

/-- The accounts of every entity are edited: entity `i` gets the chart `f i c` in place of `c`. -/
def editCharts (f : Nat → Chart → Chart) (m : Model) : Model :=
  { m with entities := m.entities.mapIdx (fun i e => { e with chart := f i e.chart }) }

theorem prepareEntity_chart (clk : Clock) (n : Nat) (e : Entity) (c : Chart) :
    prepareEntity clk n { e with chart := c } = ⟨{ (prepareEntity clk n e).val with chart := c }, (prepareEntity clk n e).err⟩ ∧
    (prepareEntity clk n e).val.chart = e.chart := by
  unfold prepareEntity
  cases dateAt clk n with
  | error err => exact ⟨rfl, rfl⟩
  | ok x =>
    dsimp only
    cases plusYear clk.start with
    | error err => exact ⟨rfl, rfl⟩
    | ok y => exact ⟨rfl, rfl⟩

theorem each_prepare_charts (clk : Clock) (n : Nat) : ∀ (es : List Entity) (f : Nat → Chart → Chart),
    each (prepareEntity clk n) (es.mapIdx (fun i e => { e with chart := f i e.chart })) =
      ⟨(each (prepareEntity clk n) es).val.mapIdx (fun i e => { e with chart := f i e.chart }), (each (prepareEntity clk n) es).err⟩
  | [], f => by simp [each]
  | e :: es, f => by
    have ih := each_prepare_charts clk n es (fun i => f (i + 1))
    obtain ⟨h1, h2⟩ := prepareEntity_chart clk n e (f 0 e.chart)
    rw [List.mapIdx_cons]
    cases hr : prepareEntity clk n e with
    | mk e' o =>
      rw [hr] at h1 h2
      simp only at h1 h2
      cases o with
      | some x => simp only [each, h1, hr, List.mapIdx_cons, h2]
      | none => simp only [each, h1, hr, List.mapIdx_cons, h2, ih]

theorem prepareModel_charts (f : Nat → Chart → Chart) (m : Model) :
    prepareModel (editCharts f m) = ⟨editCharts f (prepareModel m).val, (prepareModel m).err⟩ := by
  unfold prepareModel editCharts
  simp only [each_prepare_charts]

/-- **C128.** A run that raised leaves nothing behind that a corrected run could trip over: editing the charts of
accounts after the run and running again gives exactly what editing them before the first run would have given. -/
theorem C128_repair (m : Model) (f : Nat → Chart → Chart) :
    runModel (editCharts f (runModel m).val) = runModel (editCharts f m) := by
  rw [runModel_eq, prepareModel_charts, prepareModel_after_run, ← prepareModel_charts, ← runModel_eq]

/-- The repair of `modF`: entity 1 gets the account it misses. -/
def addFees : Nat → Chart → Chart := fun i c => if i = 1 then
  { c with str := { Structure.new "GL".toList with accounts := runOps [.create [1] "Fees".toList none none] } } else c

example : (runModel modF).err = some .indexError ∧ (runModel modF).val.clock.ix = 12 ∧
    (runModel (editCharts addFees (runModel modF).val)).err = none := by decide +kernel

/-- **C128.** If a run that stays in the calendar raises, one of the entities raises the same exception, in the same
period and with the same ledger, when it is run on its own. -/
theorem C128_culprit (m : Model) (h1 : dtMin ≤ m.clock.start) (h2 : year (m.clock.atIx m.periodCount) ≤ 9998)
    (x : PyErr) (h : (runModel m).err = some x) :
    ∃ (i : Nat) (e e' : Entity), m.entities[i]? = some e ∧ (runModel m).val.entities[i]? = some e' ∧
      runModel { m with entities := [e] } = ⟨{ (runModel m).val with entities := [e'] }, some x⟩ := by
  have hearly : Early m.clock m.periodCount := ⟨h1, h2⟩
  have hrun : ∀ es : List Entity, runModel { m with entities := es } =
      runPrepared ({ m with entities := es } : Model).prepare := by
    intro es
    have hp := prepareModel_early (m := { m with entities := es }) hearly
    have hv := prepareModel_ok hp
    rw [runModel_eq]
    cases hx : prepareModel { m with entities := es } with
    | mk p o => rw [hx] at hp hv; simp only at hp hv; subst hp hv; rfl
  have hm : runModel m = runPrepared m.prepare := hrun m.entities
  rw [hm] at h ⊢
  obtain ⟨i, e, e', g1, g2, g3⟩ := runLoop_culprit m.periodCount m.clock.reset _ x h
  simp only [Model.prepare, List.getElem?_map] at g1
  cases h0 : m.entities[i]? with
  | none => rw [h0] at g1; simp at g1
  | some e0 =>
    rw [h0] at g1; simp only [Option.map_some, Option.some.injEq] at g1
    refine ⟨i, e0, e', h0, g2, ?_⟩
    rw [hrun]
    have hs : ({ m with entities := [e0] } : Model).prepare = { m.prepare with entities := [e] } := by
      simp only [Model.prepare, List.map_cons, List.map_nil, g1]
    rw [hs]
    unfold runPrepared
    have e1 : m.prepare.periodCount = m.periodCount := rfl
    have e2 : m.prepare.clock = m.clock.reset := rfl
    dsimp only
    rw [e1, e2, g3]

/-- **C128.** After such a run the ledger of every entity is a first part of the ledger it has after running on its own:
nothing is booked that would not have been booked, and nothing is missing before the point where the run stopped. -/
theorem C128_prefix (m : Model) (h1 : dtMin ≤ m.clock.start) (h2 : year (m.clock.atIx m.periodCount) ≤ 9998)
    (i : Nat) (e : Entity) (he : m.entities[i]? = some e) :
    ∃ e' e'', (runModel m).val.entities[i]? = some e' ∧ (runModel { m with entities := [e] }).val.entities = [e''] ∧
      e'.transactions <+: e''.transactions := by
  have hearly : Early m.clock m.periodCount := ⟨h1, h2⟩
  have hrun : ∀ es : List Entity, runModel { m with entities := es } =
      runPrepared ({ m with entities := es } : Model).prepare := by
    intro es
    have hp := prepareModel_early (m := { m with entities := es }) hearly
    have hv := prepareModel_ok hp
    rw [runModel_eq]
    cases hx : prepareModel { m with entities := es } with
    | mk p o => rw [hx] at hp hv; simp only at hp hv; subst hp hv; rfl
  have hm : runModel m = runPrepared m.prepare := hrun m.entities
  rw [hm, hrun]
  have h' : m.prepare.entities[i]? = some (e.prepare m.clock.reset m.periodCount) := by
    simp [Model.prepare, he]
  exact runLoop_prefix m.periodCount m.clock.reset _ i _ h'

example : (modF.entities[2]?).isSome = true ∧ (runModel modF).err ≠ none := by decide +kernel

/-- **C128.** In the period in which an entity raises it adds no closing transaction: a year is closed entirely or not
at all. -/
theorem C128_unclosed (e : Entity) (clk : Clock) (h : (runEntity clk e).err ≠ none) :
    ∃ l, (runEntity clk e).val.transactions = e.transactions ++ l ∧ ∀ t ∈ l, t.closingCr = false ∧ t.closingDt = false := by
  obtain ⟨l, h1, h2⟩ := runEntity_prefix clk e
  exact ⟨l, h1, h2 h⟩

example : ((runLoop 12 Business.Props.clkM [(prepareEntity Business.Props.clkM 30 entF).val]).val.2.map
    (fun e => (runEntity (clockAt Business.Props.clkM 12) e).err)) = [some .indexError] := by decide +kernel

end Auxi.RunState.Props
