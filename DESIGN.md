# Formal model of auxi 0.3.6 in Lean 4 — design

## 1. Trusted base

* Lean 4.33.0's kernel. Every theorem depends on at most the axioms `propext`, `Classical.choice` and `Quot.sound`
  (check: `#print axioms`). No axioms are added, no compiled evaluation is used; `decide +kernel` is evaluated by the kernel.
* The tie between the model and `/repo` is reading: every definition cites the file and lines it models.
* The English properties in `properties.jsonl`, the specifications in `lean/Verif/Spec` and the statements in `lean/Verif/Props` have to be read
  to see that they say the same thing.

### How Python is represented

| Python | model |
|---|---|
| float (ledgers, loans, chem, psd, slurry, files, fractions) | exact rationals `ℚ`; `chem` also keeps int/float apart (`Chem.Num`), because `type(x) is float` is tested |
| float in `psd`/`slurry` (numpy) | `F64` = finite rational, ±inf, nan: division by zero gives inf/nan as in numpy |
| float in `thermo` packages/streams, gas mixtures (numpy) | `V = Option ℝ`, `none` = not finite |
| float where powers, logarithms, exponentials occur | `ℝ`; `0 ** negative`, `log 0`, complex results of `negative ** fraction` are explicit errors or explicitly opaque |
| division of Python floats | an explicit `ZeroDivisionError` branch, never Lean's `x / 0 = 0` |
| str | `List Char` (code points) |
| exception | `Except PyErr α`; where a method changes the object before raising, the model returns the changed object too |
| dict | association list in insertion order (Python ≥ 3.7) |
| object identity | a number `ident` where the code compares identities (`Object` has no `__eq__`), position otherwise |
| shared mutable objects | owned by value by their unique owner (account tree, component tree, packages); the returned new value is the mutated object |

### Not modelled

* Rounding and underflow of floats, except in `ChemFloat`, `ReportsFloat`, `IncomeFloat`, `LoanFloat`, `StoichFloat`, `PsdFloat` and `ThermoFloat`; overflow (so: `OverflowError` of `exp`, numbers beyond 1e308, equality of nearly equal floats).
* `float()` texts `inf`, `nan`, `1_000`, non-ASCII digits; undecodable files; file system errors.
* `jsonpickle` beyond trees of attributes, lists, dictionaries, texts and numbers (`Persist`) and graphs of instances and lists (`Share`; the order in which attributes are visited, which differs between its versions, is a parameter); matplotlib, `__str__` of the other classes, `__repr__`, `tabulate`'s text layout, `print`.
* `scipy.optimize.root` is a parameter: any function of its inputs; what is proved for all solvers and what needs a root is said in each theorem.
* `cerberus` is modelled by its documented meaning for `type`, `min`, `max`, `allowed`, `required` (these are the only rules the schemas use).
* `parsimonious` is modelled by a direct PEG evaluator (ordered choice, greedy repetition) for the formula grammar.
* `datetime`/`relativedelta` are modelled (proleptic Gregorian calendar, month clamping) in `Calendar`; `TimeBasedModel` start dates are `datetime` values.
* A run that raises half way: in `Business` the outcome is the error; `RunState` also describes the partly updated model.

## 2. Layout

`lean/Verif/*.lean` the models; `Spec/*.lean` small specifications that do not use the models' helpers; `Proofs/*.lean` lemmas;
`Props/*.lean` the property theorems (`Cnn_...`), each followed by an `example` showing that a concrete case meets its hypotheses.
`ShippedThermo.lean` is generated from `/repo/auxi/tools/chemistry/data/rao` by `tools/mkshipped.py`, `ShippedFluids.lean` from `/repo/auxi/tools/materialphysicalproperties/data` by `tools/mkfluids.py`.
`tools/mkprops.py`, `tools/mkmanifest.py`, `tools/manifest_more.py` write `properties.jsonl` and `MANIFEST.json`; `tools/mutate.py` runs seeded
wrong programs in a scratch copy (results in `seeded/LOG.jsonl`).

| model | code |
|---|---|
| `Calendar`, `Clock` | `core/time.py`, `modelling/core.py` |
| `Ledger`, `Reports` | `modelling/financial/des.py`, `financial/reporting.py`, `core/reporting.py` (decision which output is produced) |
| `Business`, `BusinessOps` | `modelling/business/{basic,models,structure}.py` |
| `Stoich` | `tools/chemistry/stoichiometry.py`, including the element table |
| `Chem`, `Psd`, `Slurry` | `modelling/process/materials/{chem,psd,slurry}.py` |
| `Thermo`, `ThermoAmounts`, `ThermoStream` | `modelling/process/materials/thermo.py` (packages, amounts, streams, coal) |
| `ThermoChem` | `tools/chemistry/thermochemistry.py`: records, phases, magnetic terms, compounds, module functions |
| `ShippedThermo` | the data files under `tools/chemistry/data/rao` |
| `PhysProps`, `Coals` | `tools/materialphysicalproperties/{core,idealgas,gases,polynomial,slags,coals,liquids}.py` |
| `Transport` | `tools/transportphenomena/**` |
| `FactSage` | `thermochemistry.py`: `_read_compound_from_factsage_file_`, `load_data_factsage` |
| `Csv` | `core/reporting.py` 99-106, `materialphysicalproperties/core.py` 53-145 (not the pandas part), with Python's `csv.writer` and `csv.reader` they call |
| `ChemHeap` | `chem.py` packages and assays with mutable lists held by reference |
| `Json` | the part of Python's `json` that `objects.py` uses: writer with sorted keys and indentation, reader; numbers are any type whose `repr` is read back exactly |
| `Persist` | `objects.py` (`__str__`, `write`, `read`) with the part of `jsonpickle` it uses (trees, class tags, bound methods left out); `thermochemistry.py` (`_init`, the texts of phases and records, `write_compound_to_auxi_file`, `load_data_auxi`) |
| `Rounding` | IEEE 754 binary64: round to nearest, ties to even, gradual underflow; no overflow |
| `ChemFloat` | `chem.py` (packages) with every float operation rounded; with `rnd = id` it is `Chem` (proved) |
| `ReportsFloat` | `reporting.py` (sums and totals) with every float addition rounded, and `"%.2f"`; with `rnd = id` it is `Reports` (proved) |
| `ArrHeap`, `PsdHeap`, `SlurryHeap` | `psd.py`, `slurry.py` packages and assays as references to mutable numpy arrays: which operation allocates, writes in place or binds anew |
| `ThermoHeap` | `thermo.py` packages and assays as references to mutable numpy arrays, and their `custom_properties` dictionaries |
| `StreamHeap` | `thermo.py` streams as references to mutable numpy arrays, and their `custom_properties` dictionaries |
| `Printout` | the `__str__` of the materials, packages and streams of `chem.py`, `psd.py`, `slurry.py`, `thermo.py`; writing a number is a parameter |
| `Keys` | `objects.py` (`__hash__`) with the visible behaviour of Python's `dict`; hash of a text and text of an object are parameters |
| `LoanSet` | `basic.py` 188, 200-217: the attributes of a loan set after construction |
| `LoanFloat` | `basic.py` 194-289 with every operation rounded; the C library's `pow` is a parameter |
| `ElementDict` | `chem.py` 442-457, `thermo.py` 949-960, 1693-1706: element mass dictionaries |
| `RunState` | `business/{models,structure,basic}.py` and `core/time.py` again, with the state an exception leaves behind and dates that leave the calendar; agrees with `Business` where that has an outcome (C127) |
| `DateText` | `core/helpers.py` `get_date`, `structure.py` `Activity._get_date_` (CPython's `strptime` for `%Y-%m-%d`), the constructors of the dated reports |
| `Fit` | `polynomial.py` `PolynomialModelT.create`, the columns of a `DataSet`; `np.polyfit` is a parameter assumed to solve the least squares problem, numbers are real, and cerberus' validator is taken to see the limits set after it was built |
| `Catalogue` | `thermochemistry.py` 457-469, 764-783: `list_compounds` (the printed lines), `get_phase_list`, `get_reference`, `references.json` |
| `IncomeFloat` | `reporting.py` 258-331 with every addition and subtraction rounded |
| `Spec.Plant` | no code: the programs that split and join packages, over the models of `chem`, `psd`, `slurry`, `thermo` |
| `StoichFloat` | `stoichiometry.py:57-382`, the functions of `Stoich` with every float operation rounded |
| `PsdFloat` | `psd.py:156-534`, `slurry.py:361-692`, the package functions of `Psd` and `Slurry` with every float operation rounded; the order in which `ndarray.sum` adds is a parameter |
| `LedgerApi` | `financial/des.py:356-451`: `GeneralLedger` with the default arguments of its methods |
| `Courier` | `examples/courier_example.py` built through the modelled API |
| `Paths` | `core/helpers.py:11-20`, `thermochemistry.py:541-550`, with `posixpath.dirname/join/normpath/abspath` written out from Python's documentation of them |
| `Bibliography` | `core/bibliography.py` from the entries of the file on: which entries `bibtexparser` keeps by default and under what keys; its grammar is not modelled |
| `Modelling` | `modelling/core.py`, `modelling/process/core.py`: constructors, with `super` on the class hierarchy |
| `ThermoFloat` | `thermo.py:376-580,582-599,785-898,975-1076` and the same text for streams, `1079-1315,1503-1544,1618-1640,1722-1845`: the package functions of `Thermo` (not coal) with every float operation on masses and enthalpies rounded; specific enthalpies, the temperature solver and the order in which `ndarray.sum` adds are parameters |
| `Money` | `modelling/financial/reporting.py` (`%.2f`, dates in cells), `core/reporting.py:99-106` | text of a cell; composed with `Reports` (tables), `Csv` (files) and `RunState` (runs) |
| `Share` | `objects.py` (`__str__`, `write`, `read`) for objects that share parts and for cycles: a heap of instances and lists, `jsonpickle`'s numbering of objects (`py/id`) in the order of writing and of reading |
| `Lookup` | `get_component`, `get_activity`, `__getitem__` of `business/{models,structure}.py` |
| `ShippedFluids` | `gases.py` 84-404, `liquids.py` 41-53 with the fitted models under `tools/materialphysicalproperties/data` they load |
| `FileFormat` | the readers in `materials/{chem,psd,slurry,thermo}.py` |
| `Version` | `scripts/update_version.py`; `str.replace` and `str.index` over lists of characters; encodings, translation of line ends and messages left out |
| `Install` | `setup.py` `packages`, `package_data`; of setuptools: modules and data of the listed packages; `../*.md` and metadata left out; patterns with `*` only |

## 3. Plan per property

| id | model | proof |
|----|-------|-------|
| C01, C02 | `Calendar`, `Clock`: month arithmetic and proleptic Gregorian day numbers | tick/reset history by induction; calendar arithmetic; C02: negation by witness, `_partial` for count 1 |
| C03–C09 | `Ledger`: account tree with cached paths; operations addressed by position | invariant over operation lists; refinement to a walk of the path's segments; structural induction |
| C10–C14, C96 | `Reports` | sums over lists by induction, stable sort facts, counterexamples by evaluation |
| C15 | `Reports` rendering | decision table |
| C16–C18, C32, C34, C35 | `Business` activities: index arithmetic of `prepare_to_run` | arithmetic on whole periods; counting |
| C19–C21, C36 | `Business` loans | invariant over histories; closed form of the annuity |
| C22–C25 | `Business` runs | induction over periods; frame lemmas |
| C26–C29, C33, C37 | `Business` year end | sums over ledgers; counterexamples |
| C30, C31, C38 | `BusinessOps` | invariant over operation lists |
| C40–C45 | `Stoich` | parser round trip by induction on formulae; field arithmetic |
| C50–C55, C59 | `Chem` | list algebra over ℚ; error branches |
| C46–C48, C56–C58 | `Psd`, `Slurry` over `F64` | list algebra with the cases where a value is not finite |
| C60–C63, C65, C68, C69 | `Thermo` with the compound enthalpy of `ThermoChem` | list algebra; the secant loop is exact for linear functions; histories by induction |
| C49, C97, C98 | `ThermoAmounts` | list algebra |
| C64, C66, C67, C86–C89, C99 | `ThermoStream`, `Coals` | simulation of streams by packages; list algebra for coal |
| C70–C78 | `ThermoChem` over ℝ | `HasDerivAt`, interval integrals, field arithmetic |
| C80–C82, C85, C93 | `PhysProps` over ℝ | weighted means, inequalities, finite tables |
| C83 | `Coals` | Einstein functions: derivatives |
| C84, C94 | `PhysProps` slags | monotonicity of exp, sign of the exponents; counterexamples |
| C90, C101, C102 | `Transport` natural convection | case analysis of the region table, monotone powers |
| C91, C92, C103 | `Transport` dimensionless quantities, pressure drop | field arithmetic; monotonicity of the Colebrook residual |
| C95, C100 | `FileFormat` | parser inverse on token lists; characterisation of the accepted numerals |
| C104–C107 | `ShippedThermo`, `ThermoChem` | verified interval bisection evaluated by the kernel on the whole table, lifted by a soundness lemma |
| C108 | `FactSage` (replace, split, the line loop, the final pass, `Compound(dict)`, loading) | simulation: the loop state after each line is the described prefix (induction over phases, records, lines) |
| C112, C113 | `Csv` (writer with minimal quoting, reader as an automaton over characters) | simulation: the reader after a written field is in a field-end state with exactly that text; induction over fields and rows |
| C114 | `Json`, `Persist` | the reader on a written text: simulation over characters for strings (escapes, surrogate pairs), induction over the document for the rest; uniqueness of sorted arrangements; induction over object trees; views of compounds are invariant under reordering; induction over histories of writes |
| C116, C117 | `Rounding`, `ChemFloat` | `rnd64` meets the IEEE rules (binade by binade); forward error analysis for any such rounding by induction over lists and histories; concrete packages for what fails |
| C118 | `ReportsFloat` | forward error analysis of the sums by simulation against `Reports`; exactness on multiples of a power of two; a ledger in thousandths for what fails |
| C119 | `PsdHeap`, `SlurryHeap` | refinement: each heap step is the `Psd`/`Slurry` function on the view of the heap, and keeps the arrays separate; frame theorem by induction over histories |
| C120 | `ThermoHeap` | refinement as for C119, with the functions of `Thermo` on values; dictionaries by references |
| C121 | `StreamHeap` | refinement as for C120, with the functions of `ThermoStream` on values |
| C122 | `Printout` | the lines of the text computed for any formatting of numbers, by induction over the lists; reading back through C95 |
| C123 | `Keys` | invariant over histories: every entry has the hash that its key has now; C122 for the printouts of packages |
| C124 | `Business` + `LoanSet` | the state of a loan is its terms and its progress, and getting ready resets the progress; closed form of the outstanding amount (C21) and the count of executions (C16) |
| C125 | `LoanFloat` on `Rounding` | simulation of the exact run up to amounts; error recurrence of one month, solved by induction; forward error analysis of the annuity formula |
| C126 | `ElementDict` on `Chem`, `Thermo`, `ThermoStream` | from C49 and C53 (element masses, totals); distinct keys |
| C127, C128 | `RunState` | each loop as a fold that stops at the first exception; preparing is idempotent and absorbs a run, also a partial one; dates bounded by an invariant of entities; prefixes by induction over the periods |
| C129 | `Business`, `Spec/YearEnd` (grossProfit, Untouched) | sums over the two write-off dicts, one lemma per kind of closing transaction; exact closed forms of both accounts |
| C130 | `Business`, `BusinessOps` | induction over the children |
| C131 | `Chem`, `Psd`, `Slurry`, `Thermo`, `ThermoStream` | sums of lists; the creation theorems C46, C47, C50, C65 applied to the new assay |
| C132 | `DateText` | the regular expression of `strptime` characterised piece by piece; calendar lemmas of C01 |
| C133 | `Fit` | least squares: squares that add up to zero vanish, the parallelogram law, polynomials with too many common values, perturbation by a constant; existence by projection on a finite-dimensional space |
| C134 | `Catalogue`, `ThermoChem`, `ShippedThermo` | sorting by code points gives a strictly increasing list, which is unique; case analysis of the module functions; C106 for the default data |
| C135 | `IncomeFloat` on `ReportsFloat`, `Rounding` | simulation of the exact loop; forward error analysis by induction; concrete month for the break-even row |
| C136 | `Spec.Plant` over `Chem`, `Psd`, `Slurry`, `Thermo`, `ThermoStream` | induction over the run with the additive measure of each package; single steps from C51-C57, C60-C64 |
| C137 | `StoichFloat` against `Stoich` | relative error algebra (`Within`: closed under products, quotients, sums of non-negative numbers and roundings), for any rounding `Arith`; `arith64` shows that doubles are one |
| C138 | `Psd`, `Slurry`, `Spec.F64`, `Spec.Plant` | the arithmetic of special numbers equals that of Mathlib's `EReal` where defined; finiteness of each operation; induction over the run |
| C139 | `PsdFloat`, `ChemFloat`, `Spec.PsdFloat` (`Adds`, `Plant.RunN`) | error bounds of one operation for any rounding `IEEE` and any order of additions; induction over the run with a compounding drift |
| C140 | `LedgerApi` over `Reports`, `DateText`; `Spec.ReportFaults` | the exact condition and exception of refusal of each report (C10_refused, C11_refused, C13_refused), applied to the default bounds |
| C141 | `BusinessOps` histories, `RunState` runs, `LedgerApi` reports; `Spec.RunReports` | invariant of an entity during a run (every transaction has accounts of the chart; what is in the current year debits no plain revenue account), then C127, C31, C140; `Courier` is an instance |
| C142 | `Paths`; `Spec.Paths` (walking directories) | `dirname` and `join` commute with walking; `normpath` of a rooted path is the walk from the root |
| C143 | `Bibliography`; `Spec.Bibliography` | a fold of dictionary updates answers with the last update of the key |
| C144 | `Modelling` | evaluation for all arguments |
| C145 | `Reports`; `Spec.ReportsAdd` | a sorted list filtered by adjoining ranges is a concatenation; the closed forms of C10 and C13 are sums over transactions |
| C146, C147 | `Business`; `Spec.Independence` | the closed form of a run (C22) is a concatenation over periods and activities; the schedule of an activity under two horizons compared |
| C148 | `ThermoFloat`, `Spec.ThermoFloat` | error bounds of one operation for any rounding `IEEE` and any order of additions; induction over the loop that adds up the enthalpy and over the run of a plant |
| C149 | `Psd`, `Slurry`, `Chem`, `Thermo` | from the conservation theorems and extensionality: a package is determined by its material and contents (and density and water of a slurry) |
| C150 | `Money` | nearest whole number of cents with ties to even, by cases on the floor; decimal text read back through the reader of C95 |
| C151 | `Money`, `Reports`, `Csv`, `RunState` | tables of C11/C10 mapped to texts, files read back by C112, days by C132, runs by C141; injectivity of zero-padded numbers |
| C152 | `Share` | simulation of writer and reader by induction on depth with the list of addresses met; copies related to originals, paths followed in step; the writer on the copy runs in step with the writer on the original; counterexample with an entity and its component |
| C153 | `ThermoStream`, `Coals` | the loops over the compounds are sums per element (`share_unique`: a compound consists of one element at most); burning: the enthalpy of formation less the products; heating: C83's integral of the heat capacity; wrong sign without a heating value for all coals |
| C154 | `Business`, `Reports` | simulation: every function on models, ledgers and tables commutes with multiplying the amounts by k (run, year end and reports) |
| C155 | `Transport` | case analysis on denominators and arguments of logarithms; the pole of each correlation from `logb` and `rpow` being inverse |
| C156 | `Lookup`, `BusinessOps` | induction over histories: the children of a name are a pile (filter by name of a removal of the last is `dropLast`) |
| C157 | `Business`, `Clock` | from C22 (what a run posts): schedules are computed from comparisons of dates with the dates of periods only |
| C158 | `Business` | from C22 and C29: the dicts of the year end are linear in the amounts moved from account to account, a dict without zero entries is determined by its linear functionals, so the closing transactions are permuted at most |
| C159 | `Business` | the present value of d payments is the payment times a geometric sum, whose closed form is the formula of the constructor; comparisons by induction on the number of months; what is booked by period n by induction on n, then C19 and C20 for the whole run |
| C160 | `Reports`, `Business` | from C10, C11 and C13 the figures are linear in the amounts moved between accounts, and these are determined by the sums per pair of accounts and date; dicts with the same entries are permutations of each other |
| C161 | `Version` | `replaceAll` is the relation `Exchanged` (leftmost, not overlapping), and acts line by line because no version contains a line end; of the lines of a template only those with the keyword are changed, as the part of one keyword before its quote is no suffix of that of another; histories by induction |
| C162 | `Install` | the matcher is the relation `Fits`; `install` is membership in the tree and `Listed`; the shipped lists for every tree and every name |
| C115 | `ChemHeap` refined by `Chem` | refinement: a heap in which no two packages share a list simulates the value model statement by statement; separation is an invariant of every program |
| C109–C111 | `ShippedFluids`, `PhysProps`, `ThermoChem` | a polynomial positivity test (shift, scale, bisect) proved sound, evaluated by the kernel on the shipped coefficients, their derivatives and combinations |

No property in the list is considered inexpressible. Those that the code violates are settled by a proved counterexample (usually a general
theorem saying exactly when the property fails) plus a `_partial` theorem under the exact guard.

## 4. Where the code disagrees with the property

The model follows the code. The following are false of the unchanged code; each is proved in the model.

| id | what happens |
|---|---|
| C02 | `timestep_period_count` is ignored by the clock |
| C05 | a path below a missing account raises instead of returning `None` |
| C12 | a component's transaction list is selected by text prefix: siblings whose name extends the component's are included |
| C13 | an income account whose first transaction is on its unusual side is reported with the wrong sign |
| C17, C32, C34, C35, C36 | activity start/end indices: sentinel −1 collides with real indices, the last interval is dropped, indices of the first run stick, default loans never execute |
| C21 | an interest free loan raises `ZeroDivisionError` |
| C26–C28, C33, C37 | year end: sales are doubled instead of zeroed, losses do not reach retained earnings, the last year is not closed, a debited sales account raises |
| C38 | entity paths lack the model's name until it is renamed |
| C44 | a group with subscript 0 counts once |
| C46–C48, C57, C69 | divisions by zero in numpy give NaN silently (all-zero assays, empty packages) |
| C51, C53, C55, C59 | chem: `+` of packages of one material concatenates lists and loses masses; `clear` always raises; failed `add_to` leaves half of the addition |
| C54, C58 | slurry: a rejected assay overwrites density and water; a (str, float) tuple is taken for water |
| C62, C68 | the temperature solver's tolerance is absolute, so small packages get the temperature of one linear step |
| C65, C66, C67, C86–C89 | thermo: added assays raise `KeyError`, `clear` keeps a stream's enthalpy, coal packages cannot be made, coal enthalpy not extensive without a heating value, element flows raise |
| C75, C77 | above the data the magnetic heat capacity counts twice; a magnetic phase from a dictionary raises |
| C80, C81, C84, C85, C93, C94 | pure air raises `KeyError`; mixture, slag and coal models skip validation; Urbain refuses pure silica; Riboud changes the caller's dictionary; fluorspar makes Riboud's viscosity rise with temperature |
| C90, C91, C92, C101 | the convection table is indexed by log10(Ra) but compared with Ra; cold surfaces give complex numbers; `dimensionlessquantities.Ra` raises `NameError`; the root finder's failure flag is ignored |
| C96 | dates compared with datetimes raise `TypeError` |
| C100 | duplicate assay names are interleaved; blank lines after `#` or before the heading break a file; the documented slurry example is unreadable |
| C104 | the shipped data of monoclinic sulphur and grey tin have heat capacities that are not positive |
| C108 | a new phase whose first record carries the label of the record before it (normal for phases with one record each) raises `KeyError`; a formula at the end of the heading keeps its line end; the documented `convert_fact_file_to_auxi_thermo_file` does not exist |
| C110 | water's own kinematic viscosity model is up to 2 % off viscosity over density and rises from 600 K to 610 K; at 276 K thermal expansion is negative while density falls with temperature |
| C111 | heat capacity of carbon monoxide (1000 K) and water vapour (373.15 K) differs by more than 9 % between `gases.py` and the thermochemical data |
| C112 | before Python 3.13 a carriage return in a cell is not quoted, so a row of a CSV report reads back as two |
| C113 | template file names are lower case: the template of Co replaces that of CO |
| C115 | `MaterialPackage` and `add_assay` keep the caller's list: two packages made from one list, or a package whose list is also an assay, change together |
| C114 | a phase or a heat capacity record written with `write` cannot be read back (its text is not JSON); a phase that is given magnetic data after it was made behaves as non-magnetic until it is written and read, and as magnetic afterwards; `load_data_auxi` clears the compounds before it reads, so that a bad file loses them |
| C117 | a package created with 10 kg may refuse to give 10 kg; after 3 of 10 kg have been extracted the other 7 kg are refused (rounding makes `get_mass()` smaller) |
| C118 | three payments of 0.005, 0.01 and 0.15 into the bank print total assets 0.16 and total liabilities and equity 0.17 |
| C119 | two psd (or slurry) packages constructed from one array, or an assay added from a package's array, share it: extracting from one changes the other |
| C120 | two thermo packages constructed from one array share it: extracting from one empties the other, whose enthalpy stays; a clone ("complete copy") shares the dictionary `custom_properties` of the original, and so does a package plus a tuple |
| C121 | two thermo streams constructed from one array share it; a clone and a stream plus a tuple share `custom_properties` with the original |
| C122 | the printout of a material that lists a compound twice shows the first mass twice; numbers of twenty or more characters run together in the tables of `chem`, `psd` and `slurry`; a thermo package whose total mass is not positive is printed as zeros throughout |
| C122 | after `add_assay` a thermo material with custom properties cannot be printed (`KeyError`); a coal stream made without a heating value cannot be printed (`TypeError`) |
| C123 | the hash of an object is the hash of its printout: an object that is a dictionary key or in a set is lost when it changes, and a second entry can be made for it |
| C124 | setting the duration of a loan moves neither the end date nor (until another term is set) the instalments; setting the rate to 0 raises but the rate stays 0; a loan with interval >= 2 pays a month's interest and instalment per interval and is not repaid; an amount changed after prepare_to_run and before the loan is paid out is paid out, but interest goes on the old amount |
| C125 | with floats a loan at a rate of at most 2^-50 cannot be made (ZeroDivisionError), and at slightly larger rates the instalment is wrong in the first digit |
| C126 | get_element_mfr_dictionary raises for every stream |
| C127 | a run that starts in the year 9999 raises ValueError even if it ends in that year |
| C129 | the gross profit account is at minus twice the gross profit after the year end; the income summary at twice the loss |
| C131 | a thermochemical material accepts the assay of a package, and then raises KeyError when a package is made of it |
| C135 | a month that breaks even exactly (sales 0.30, expenses 0.10 and 0.20) is printed as a loss, `(0.00)` |
| C136 | a plant of chem packages loses material when two packages of one material are added |
| C138 | `clear` of a psd or slurry package with an infinite mass, or one that is not a number, leaves `nan` in it |
| C140 | a transaction created in a ledger without a date, or without a source, makes the ledger's reports without arguments fail with `TypeError` or `AttributeError` |
| C141 | an activity that debits other income before it was credited stops the run at the year end with `KeyError`; a chart whose account "Gross Profit" was removed still runs, and has no balance sheet afterwards |
| C143 | `db['davidson1993']` and `db['nist2018-constants']` raise `KeyError`: `bibtexparser` drops the types `report` and `online` unless told otherwise |
| C144 | `VariableGroup(...)` raises `TypeError` for all arguments (`super(Variable, self)` on an object that is no `Variable`) |
| C145 | sales 100 in January, a refund of 10 first thing in February: the net incomes of the two months are 70 and -15, that of both together 35 |
| C147 | every second month: a run of 2 months posts nothing, a run of 4 posts in February; an activity starting in August posts in January to March if the run ends in March |
| C149 | a kilogram taken out of a chem package and added again: the sum has twice as many masses and reports only what had remained; water taken out of water and put back in a slurry package has density nan |
| C150 | two transactions of 0.004: printed 0.00, 0.00 and total 0.01; -0.004 is printed as -0.00, a loss of 0.004 as (0.00) |
| C151 | a transaction named `A` of source `/E/A` without accounts and one named `E/A` with empty accounts and a tenth of a cent more have the same CSV file |
| C152 | an entity with a component, written and read with a `jsonpickle` that visits attributes as they were set: the ledger of the component is the list of components (the keys of the file are sorted, the numbers of the objects are not) |
| C153 | coal without a given heating value: the heating value that the code makes up has the wrong sign, the stream holds less than the products of burning it |
| C155 | negative Reynolds numbers: the laminar friction factor is negative, and the Haaland friction factor in a rough pipe is a number that means nothing |
| C156 | a name given twice: what was created second is not found under its name; `remove_component` by that name removes it, not the one that the name gives |
| C157 | a model in months started on the 31st instead of the 30th of January: the payment at the end of February is not a day later but on the same day |
| C158 | an activity every third month, planned in two halves that meet in mid June: the execution in June is lost; with interval 0 the month in which the halves meet is executed twice; a refund of revenue listed before the revenue: the year end raises `KeyError`, in the other order it does not |
| C160 | sales of 10 and refunds of 4 a month over three months: income 18 if the sales are listed first, 26 if the refunds are, 20 if they are listed first as 1 and 3; the balance sheets are the same |
| C161 | `pressuredrop.py`, `gases.py`, `idealgas.py` (`__version__ = "0.3.6"` in double quotes), `coals.py` (0.3.3) and `thermochemistry.py` (0.3.1) are left behind by every update; in shell scripts `11.0.4` becomes `11.1.4` when auxi goes from 1.0 to 1.1 |
| C162 | `auxi.tools.transportphenomena.fluidflow` is not listed in `setup.py`, so `pressuredrop` is not installed; `auxi/core/data/bibliography.bib` fits no pattern, so `import auxi.core.bibliography` raises `FileNotFoundError` once installed |
