{"id": "C01", "title": "Clock is drift free", "statement": "After Clock.reset() followed by n calls of tick(), get_datetime() is the start datetime advanced by exactly n timestep periods counted from the start (never from the previous tick): n ms/s/min/h/days/weeks of elapsed time, or n calendar months/years with the day of month clipped to the length of the target month. Consequently it is strictly increasing in n, independent of earlier ticks and resets, and 12*n month steps land on the same instant as n year steps.", "quantifier": "every start datetime, every timestep duration, every tick/reset history, every n", "why_tests_cant": "unbounded tick histories and all calendar dates; end-of-month clipping makes errors appear only for particular dates", "anchors": ["auxi/core/time.py: Clock.tick, Clock.reset, Clock.get_datetime_at_period_ix, Clock.get_datetime"]}
{"id": "C02", "title": "A timestep spans timestep_period_count periods", "statement": "A Clock created with timestep_period_count=k advances k periods per tick, as its constructor documents.", "quantifier": "every k, every duration, every tick count", "why_tests_cant": "needs all k; (the code ignores k: the negation is proved, and the property is proved for k = 1)", "anchors": ["auxi/core/time.py: Clock.__init__, Clock.get_datetime_at_period_ix"]}
{"id": "C03", "title": "Account paths always spell the account's position", "statement": "After any sequence of create_account, remove_account and renames on a general ledger structure, at any depth, each account's path is the path of its parent followed by '/' and its own name (the structure's top level accounts: the name alone preceded by the structure's path rule).", "quantifier": "every sequence of operations of any length on a tree of any depth", "why_tests_cant": "paths are cached in the nodes and updated by three different code paths; only an invariant covers all histories", "anchors": ["auxi/modelling/financial/des.py: GeneralLedgerAccount.set_parent_path, name, create_account, remove_account; GeneralLedgerStructure"]}
{"id": "C04", "title": "Account lookup by path finds exactly the account at that path", "statement": "For sibling-unique, '/'-free names, get_account(names joined by '/') returns the very account reached by walking those names; and whatever get_account returns for a path is the account reached by walking the path's segments, first match at each level.", "quantifier": "every account tree, every path string", "why_tests_cant": "all trees and all strings, including missing segments and duplicate names", "anchors": ["auxi/modelling/financial/des.py: GeneralLedgerStructure.get_account, GeneralLedgerAccount.get_child_account"]}
{"id": "C05", "title": "A missing account is reported as None", "statement": "get_account returns None (and does not raise) when the path does not denote an account, as documented.", "quantifier": "every account tree, every path", "why_tests_cant": "all trees/paths (false in the code for nested paths: negation proved, and the exact outcome of every lookup is proved)", "anchors": ["auxi/modelling/financial/des.py: GeneralLedgerStructure.get_account, GeneralLedgerAccount.__getitem__"]}
{"id": "C06", "title": "validate_account_names accepts exactly the lists of existing accounts", "statement": "validate_account_names(names) returns without error iff every name denotes an existing account; otherwise it raises.", "quantifier": "every account tree and list of names", "why_tests_cant": "all trees, all lists", "anchors": ["auxi/modelling/financial/des.py: GeneralLedgerStructure.validate_account_names"]}
{"id": "C07", "title": "Descendant enumeration is complete and duplicate free", "statement": "get_account_descendants(account) returns every strict descendant of the account exactly once, parents before children, and never the account itself or an outsider.", "quantifier": "every account tree", "why_tests_cant": "unbounded depth and width", "anchors": ["auxi/modelling/financial/des.py: GeneralLedgerStructure.get_account_descendants, _get_account_and_descendants_"]}
{"id": "C08", "title": "An account's type is its top level ancestor's type", "statement": "After any sequence of create/remove/rename operations below the top level, every account has the account type of the top level account it lives under.", "quantifier": "every operation sequence, every depth", "why_tests_cant": "all histories", "anchors": ["auxi/modelling/financial/des.py: GeneralLedgerAccount.create_account"]}
{"id": "C09", "title": "Creating then removing an account is a no-op", "statement": "Creating a child account with some name and then removing that name from the same parent restores the parent's children exactly, even if siblings with the same name existed before; removing a missing name changes nothing.", "quantifier": "every tree, every name", "why_tests_cant": "all trees and name clashes", "anchors": ["auxi/modelling/financial/des.py: GeneralLedgerAccount.create_account, remove_account"]}
{"id": "C10", "title": "The balance sheet balances", "statement": "For any list of transactions, at any end date, total assets minus (total liabilities + total equity) on the balance sheet equals the net of credits less debits on revenue and expense accounts up to that date; in particular the sheet balances exactly when income statement accounts net to zero.", "quantifier": "every ledger, every transaction list, every end date (exact arithmetic)", "why_tests_cant": "sum over arbitrarily long lists with arbitrary account typing", "anchors": ["auxi/modelling/financial/reporting.py: BalanceSheet._sum_amounts_per_account_, _generate_table_"]}
{"id": "C11", "title": "The transaction list shows exactly the selected transactions, in date order, with their total", "statement": "The transaction list report contains a row for each transaction of the ledger whose source path starts with the component path and whose date is within [start, end], exactly as many times as in the ledger, sorted by date with ties in ledger order, and the closing total is the sum of the listed amounts.", "quantifier": "every transaction list, path and date window", "why_tests_cant": "sorting/filtering of arbitrary lists", "anchors": ["auxi/modelling/financial/reporting.py: TransactionList._generate_table_"]}
{"id": "C12", "title": "A component's transaction list contains only that component's transactions", "statement": "With component_path set, only transactions whose source lies at or below that component (path segment wise) are listed.", "quantifier": "every component tree and transaction list", "why_tests_cant": "name prefix clashes (Comp1/Comp10) appear only for particular names; negation proved together with the exact guard", "anchors": ["auxi/modelling/financial/reporting.py: TransactionList._generate_table_"]}
{"id": "C13", "title": "The income statement reports the net of every income account", "statement": "On the income statement each revenue account shows credits minus debits and each expense account debits minus credits over the non-closing transactions of the period, and net income is total revenue minus total expense.", "quantifier": "every transaction list", "why_tests_cant": "the error depends on which entry touches an account first: order dependent; negation proved with the exact guard", "anchors": ["auxi/modelling/financial/reporting.py: IncomeStatement._sum_amounts_per_account_, _generate_table_"]}
{"id": "C14", "title": "The chart of accounts report lists every income and balance sheet account once", "statement": "The general ledger structure report contains, for every account whose top level number starts with I or B, exactly one row (children directly after their parent, prefixed by the parent's number), income accounts before balance sheet accounts, each group in account number order.", "quantifier": "every ledger structure", "why_tests_cant": "unbounded trees", "anchors": ["auxi/modelling/financial/reporting.py: GeneralLedgerStructure"]}
{"id": "C15", "title": "Rendering writes a file iff a path is given and returns the text only for the string format", "statement": "Report.render returns the report text for the string format only; printout, and latex/txt/csv without an output path, print the rendered text and write nothing; latex/txt/csv with an output path write the rendered text to a file with the matching extension and print nothing; the rendered text depends on the report's data and the format only.", "quantifier": "every format, every output path", "why_tests_cant": "decision table over all formats and path settings", "anchors": ["auxi/core/reporting.py: Report.render"]}
{"id": "C16", "title": "An activity executes exactly on its schedule", "statement": "In a run of n periods an activity executes in period ix exactly when (ix+1) is a multiple of its interval (or the interval is 0), ix is not before its start index and ix plus the interval does not exceed its end index; the resulting number of executions has the closed form (number of multiples in the window).", "quantifier": "every start, end, interval and horizon", "why_tests_cant": "all schedules and horizons", "anchors": ["auxi/modelling/business/structure.py: Activity._meet_execution_criteria, Activity.prepare_to_run"]}
{"id": "C17", "title": "An activity whose start lies beyond the run horizon never executes", "statement": "If an activity's start datetime is later than every period of the run then it does not execute in that run.", "quantifier": "every clock, horizon and start date", "why_tests_cant": "boundary dates; negation proved plus the exact guard under which it holds", "anchors": ["auxi/modelling/business/structure.py: Activity.prepare_to_run"]}
{"id": "C18", "title": "A basic activity posts one transaction of its amount per scheduled period", "statement": "BasicActivity.run posts, in each period in which it is scheduled and its amount is positive, exactly one transaction with its amount, debit and credit accounts, the period's datetime and the activity's path as source; otherwise nothing. Over a run the posted total is amount times the number of executions.", "quantifier": "every activity, every period sequence", "why_tests_cant": "unbounded histories", "anchors": ["auxi/modelling/business/basic.py: BasicActivity.run"]}
{"id": "C19", "title": "Loan ledger balance equals the outstanding amount", "statement": "At every point of a run, credits minus debits of the loan account (from the activity's transactions) equals the activity's outstanding amount, and bank inflow plus interest equals repayments plus outstanding amount.", "quantifier": "every amount, rate, duration, history of periods (exact arithmetic)", "why_tests_cant": "unbounded number of periods", "anchors": ["auxi/modelling/business/basic.py: BasicLoanActivity.run"]}
{"id": "C20", "title": "The loan is fully repaid after its duration", "statement": "With a positive monthly rate, after the loan is made and `duration` monthly payments the outstanding amount is exactly zero; before that it is positive and strictly decreasing.", "quantifier": "every amount, rate and duration (exact arithmetic)", "why_tests_cant": "needs the geometric series for all n", "anchors": ["auxi/modelling/business/basic.py: BasicLoanActivity._calculate_monthly_payment..., run"]}
{"id": "C21", "title": "An interest free loan can be created and is repaid in equal instalments", "statement": "A BasicLoanActivity with interest rate 0 (the constructor's default) and positive duration can be constructed.", "quantifier": "every amount and duration", "why_tests_cant": "all parameters; negation proved (ZeroDivisionError for every amount and duration), with the exact set of constructible loans", "anchors": ["auxi/modelling/business/basic.py: BasicLoanActivity.__init__, interest_rate"]}
{"id": "C22", "title": "A run visits every entity once per period, in order, and ends with the clock at the horizon", "statement": "TimeBasedModel.run executes each entity exactly period_count times, entities in creation order inside a period, with clock indices 0..period_count-1, and leaves the clock at period_count.", "quantifier": "every model, every period count", "why_tests_cant": "unbounded sizes", "anchors": ["auxi/modelling/business/models.py: TimeBasedModel.prepare_to_run, run"]}
{"id": "C23", "title": "Re-running a model reproduces the same ledgers", "statement": "Running a model twice in succession gives the same transactions in every entity's ledger as running it once.", "quantifier": "every model with unchanged clock settings", "why_tests_cant": "all models; hidden state is carried from run to run", "anchors": ["auxi/modelling/business/models.py: run", "auxi/modelling/business/structure.py: Entity.prepare_to_run, Activity.prepare_to_run", "auxi/modelling/business/basic.py: BasicLoanActivity.prepare_to_run"]}
{"id": "C24", "title": "Every transaction is balanced: the trial balance is always zero", "statement": "For any ledger history (including year end closing) the sum over accounts of debits equals the sum over accounts of credits.", "quantifier": "every run, every period", "why_tests_cant": "all histories", "anchors": ["auxi/modelling/financial/des.py: Transaction, GeneralLedger.create_transaction", "auxi/modelling/business/structure.py: Entity"]}
{"id": "C25", "title": "Activities post only to their own entity's ledger, in component order", "statement": "Running an entity appends to its own ledger exactly the transactions of its component tree (sub-components before the component's own activities, creation order) and leaves other entities' ledgers alone; the result of running one entity does not depend on the other entities.", "quantifier": "every model", "why_tests_cant": "all component trees", "anchors": ["auxi/modelling/business/structure.py: Component.run, Entity.run", "auxi/modelling/business/models.py: run"]}
{"id": "C26", "title": "Year end closing zeroes other income and expense accounts", "statement": "After the year end procedure the revenue and expense accounts outside sales and cost of sales net to zero over the closed year.", "quantifier": "every year of transactions", "why_tests_cant": "all transaction lists", "anchors": ["auxi/modelling/business/structure.py: Entity._perform_year_end_procedure"]}
{"id": "C27", "title": "Year end closing zeroes sales and cost of sales accounts", "statement": "After the year end procedure, sales and cost of sales accounts net to zero over the closed year.", "quantifier": "every year of transactions", "why_tests_cant": "all transaction lists; negation proved (positive balances are doubled instead)", "anchors": ["auxi/modelling/business/structure.py: Entity._perform_year_end_procedure (gross profit)"]}
{"id": "C28", "title": "A loss reduces retained earnings", "statement": "A year with a net loss decreases the retained earnings account by the size of the loss.", "quantifier": "every loss", "why_tests_cant": "all; negation proved", "anchors": ["auxi/modelling/business/structure.py: Entity._perform_year_end_procedure (retained earnings)"]}
{"id": "C29", "title": "Year ends fire once per elapsed year, never twice for a year", "statement": "During a run year end procedures happen with strictly increasing year end datetimes, at most one per period, none while less than a year has elapsed, and successive closed windows neither overlap nor leave gaps. Every closing transaction bears its entity's path and names the account it settles.", "quantifier": "every clock with monotone datetimes, every horizon", "why_tests_cant": "all histories", "anchors": ["auxi/modelling/business/structure.py: Entity.prepare_to_run, _perform_year_end_procedure"]}
{"id": "C30", "title": "Component paths always spell the component's position", "statement": "After any sequence of component creations, activity additions, removals and renames, each component's path is its parent's path followed by '/' and its name, and each activity's path likewise.", "quantifier": "every operation sequence", "why_tests_cant": "all histories", "anchors": ["auxi/modelling/business/structure.py: Component.set_parent_path, name, create_component, add_activity"]}
{"id": "C31", "title": "An activity is only added when its accounts exist", "statement": "add_activity either raises and leaves the component unchanged, or adds the activity and every account the activity refers to exists in the ledger structure.", "quantifier": "every structure and activity", "why_tests_cant": "all inputs", "anchors": ["auxi/modelling/business/structure.py: Component.add_activity"]}
{"id": "C32", "title": "An activity without dates executes once per interval of the run", "statement": "In a run of n periods an activity with repetition interval k and neither start nor end date executes floor(n/k) times.", "quantifier": "every n and k", "why_tests_cant": "all horizons and intervals; negation proved, exact count proved", "anchors": ["auxi/modelling/business/basic.py: Activity._meet_execution_criteria", "auxi/modelling/business/models.py: TimeBasedModel.run"]}
{"id": "C33", "title": "Every full year covered by a run is closed", "statement": "After a run every year (from the clock's start) that ended at or before the end of the run's last period has been closed by the year end procedure.", "quantifier": "every clock, horizon and entity", "why_tests_cant": "all; negation proved for the last year, exact characterisation proved", "anchors": ["auxi/modelling/business/structure.py: Entity.run, perform_year_end_procedure"]}
{"id": "C34", "title": "An activity's schedule does not depend on earlier runs", "statement": "Two consecutive runs of the same model with different horizons give the second run the schedule it would have had on a fresh model.", "quantifier": "every pair of horizons", "why_tests_cant": "stateful history; negation proved", "anchors": ["auxi/modelling/business/basic.py: Activity.prepare_to_run"]}
{"id": "C35", "title": "An activity never executes after its end date", "statement": "An activity with an end datetime does not execute in a period starting after that datetime.", "quantifier": "every clock, horizon, end datetime and interval", "why_tests_cant": "all; negation proved for sentinel and zero interval cases, rest proved", "anchors": ["auxi/modelling/business/basic.py: Activity.prepare_to_run, _meet_execution_criteria"]}
{"id": "C36", "title": "A loan with the default start date is made in the first period", "statement": "A BasicLoanActivity constructed without a start date makes its loan during the run.", "quantifier": "every loan, clock and horizon", "why_tests_cant": "all; negation proved for every such loan", "anchors": ["auxi/modelling/business/basic.py: BasicLoanActivity"]}
{"id": "C37", "title": "The year end procedure never fails when all accounts exist", "statement": "If every account that transactions refer to exists in the ledger structure then running an entity past a year end does not raise.", "quantifier": "every entity, ledger and horizon", "why_tests_cant": "all; negation proved (sales debited / cost of sales credited), sufficient condition proved", "anchors": ["auxi/modelling/business/structure.py: Entity.perform_year_end_procedure"]}
{"id": "C38", "title": "Entity paths start with the model's name", "statement": "Every entity of a model has the path <model name>/<entity name>, so that the sources of its transactions spell the full position.", "quantifier": "every history of calls on a model", "why_tests_cant": "depends on the order of creation and renaming; negation proved, exact situation proved", "anchors": ["auxi/modelling/business/models.py: TimeBasedModel.create_entity, name"]}
{"id": "C40", "title": "Formula parsing inverts formula writing", "statement": "Parsing the text of any formula built from elements, subscripts, nested parenthesised groups, a dotted (hydrate) group and a phase tag yields that formula, so that the parser accepts every such text and no two different formulae share a text (up to zero padded numbers). Text that is no formula is refused by every function with the parser's error, unknown symbols with the error of the look-up.", "quantifier": "every formula of any size and nesting depth", "why_tests_cant": "infinite grammar with nesting and greedy/ordered choice", "anchors": ["auxi/tools/chemistry/stoichiometry.py: _formula_grammar, _FormulaVisitor"]}
{"id": "C41", "title": "Molar mass is the sum of the atomic masses of the atoms in the formula", "statement": "molar_mass(compound) is the sum over elements of count times atomic mass, where counts are additive over juxtaposition and multiplied by subscripts (not zero on a group) through all nesting levels; the phase tag does not matter.", "quantifier": "every formula over known elements", "why_tests_cant": "all formulae", "anchors": ["auxi/tools/chemistry/stoichiometry.py: molar_mass, _FormulaElement... count"]}
{"id": "C42", "title": "mass and amount are inverse; compound conversion preserves the element", "statement": "mass(c, amount(c, m)) = m and amount(c, mass(c, n)) = n, and convert_compound preserves the mass of the named element and is inverted by converting back.", "quantifier": "every compound with positive molar mass, every real", "why_tests_cant": "all reals and compounds", "anchors": ["auxi/tools/chemistry/stoichiometry.py: amount, mass, convert_compound"]}
{"id": "C43", "title": "Mass, mole and element fractions are fractions", "statement": "amount_fractions and mass_fractions sum to one and lie in [0,1] for non-negative, not all zero inputs, are unaffected by scaling the input, and element_mass_fractions of a compound over its elements sum to one.", "quantifier": "every mixture", "why_tests_cant": "all mixtures of any size", "anchors": ["auxi/tools/chemistry/stoichiometry.py: amount_fractions, mass_fractions, element_mass_fraction(s)"]}
{"id": "C44", "title": "A subscript of zero removes what it is written on", "statement": "A group or element written with the subscript 0 contributes no atoms.", "quantifier": "every formula", "why_tests_cant": "ranges over all formulae; false of the code for groups (counted once), true for elements", "anchors": ["auxi/tools/chemistry/stoichiometry.py: CompoundVisitor.visit_subscriptedgroup, visit_dottedgroup"]}
{"id": "C45", "title": "elements() lists exactly the elements of the compounds", "statement": "elements(compounds) succeeds exactly if every text is a formula over known elements and then returns exactly the element symbols written in them, each once.", "quantifier": "every list of texts", "why_tests_cant": "all texts", "anchors": ["auxi/tools/chemistry/stoichiometry.py: elements"]}
{"id": "C50", "title": "A chem package created with normalisation has exactly the requested mass", "statement": "Material.create_package(assay, mass, normalise=True) yields a package of exactly that mass in the proportions of the assay; a non-empty assay whose total is zero raises ZeroDivisionError and an unknown assay raises; without normalisation the package holds mass times each assay entry; a material with no compounds gives an empty package.", "quantifier": "every material, assay, mass", "why_tests_cant": "all assays", "anchors": ["auxi/modelling/process/materials/chem.py: Material.create_package"]}
{"id": "C51", "title": "Adding packages conserves the mass of every compound", "statement": "p + q (chem) has, for each compound of p's material, the mass in p plus the mass in q.", "quantifier": "every pair of packages", "why_tests_cant": "all; negation proved for packages of the same material, and proved for packages of different materials", "anchors": ["auxi/modelling/process/materials/chem.py: MaterialPackage.__add__"]}
{"id": "C52", "title": "Extracting from a chem package conserves every compound", "statement": "extract(mass | compound | (compound, mass)) splits the package: for each compound, remaining plus extracted mass equals the mass before; no mass goes negative; on error the package is unchanged.", "quantifier": "every package and argument", "why_tests_cant": "all packages and argument kinds", "anchors": ["auxi/modelling/process/materials/chem.py: MaterialPackage.extract"]}
{"id": "C53", "title": "Element masses are conserved by splitting and mixing", "statement": "Element masses of extracted plus remaining packages equal those of the original, and element masses sum to the package mass when each compound's element fractions sum to one.", "quantifier": "every package", "why_tests_cant": "all", "anchors": ["auxi/modelling/process/materials/chem.py: MaterialPackage.get_element_masses"]}
{"id": "C54", "title": "A rejected assay leaves the material unchanged", "statement": "Material.add_assay either registers the assay under a new name, leaving the other assays as they were, or raises and leaves the material as it was.", "quantifier": "every material and arguments (chem, psd, slurry, thermo)", "why_tests_cant": "all error paths; false for slurry (negation proved)", "anchors": ["auxi/modelling/process/materials/{chem,psd,slurry,thermo}.py: Material.add_assay"]}
{"id": "C55", "title": "clear() empties a package", "statement": "After clear() a package has zero mass.", "quantifier": "every package (chem, psd, slurry, thermo)", "why_tests_cant": "all; false for chem (raises always) and for thermo streams' enthalpy flow (negations proved)", "anchors": ["auxi/modelling/process/materials/*.py: MaterialPackage.clear, MaterialStream.clear"]}
{"id": "C56", "title": "PSD packages: splitting and mixing conserve every size class", "statement": "For psd packages + is additive per size class, * scales every class, extract conserves every class, add_to has the same effect as +, and mass fractions lie in [0,1] summing to one for positive mass.", "quantifier": "every package", "why_tests_cant": "all", "anchors": ["auxi/modelling/process/materials/psd.py: MaterialPackage"]}
{"id": "C57", "title": "Slurry mixing conserves solids, water and volume", "statement": "Adding two slurry packages of the same material conserves each size class, the water mass and (by density mixing) the total volume; extraction conserves them too and keeps the solid density.", "quantifier": "every pair of packages with positive densities", "why_tests_cant": "all", "anchors": ["auxi/modelling/process/materials/slurry.py: MaterialPackage.__add__, extract, get_volume"]}
{"id": "C58", "title": "A size class tuple added to a slurry adds to that size class", "statement": "package + (size class string, mass) adds the mass to that size class.", "quantifier": "every package", "why_tests_cant": "negation proved: any (str, float) tuple is taken for water", "anchors": ["auxi/modelling/process/materials/slurry.py: MaterialPackage._is_H2O_mass_tuple"]}
{"id": "C59", "title": "A failed add_to leaves the package unchanged", "statement": "If package.add_to(other) raises, the package is as it was before the call.", "quantifier": "every package and argument (chem, psd, slurry)", "why_tests_cant": "all error paths; negation proved: compounds (size classes) before the first foreign one stay added", "anchors": ["auxi/modelling/process/materials/{chem,psd,slurry}.py: MaterialPackage.add_to"]}
{"id": "C46", "title": "A psd package created from an assay has the requested mass", "statement": "material.create_package(assay, mass) has exactly the requested mass, distributed over the size classes in proportion to the assay (normalised), or the assay entries times mass (not normalised); an unknown assay raises.", "quantifier": "every material, assay and mass", "why_tests_cant": "all assays; negation proved for assays whose entries sum to zero, where the package silently holds NaN or infinite masses", "anchors": ["auxi/modelling/process/materials/psd.py: Material.create_package, Material.get_assay_total"]}
{"id": "C47", "title": "A slurry package created from an assay has the requested mass", "statement": "material.create_package(assay, mass) has exactly the requested mass, split over water and size classes in proportion to the assay, with the assay's solid density.", "quantifier": "every material, assay and mass", "why_tests_cant": "all assays; negation proved for assays with an all-zero solids part: the solids go missing", "anchors": ["auxi/modelling/process/materials/slurry.py: Material.create_package"]}
{"id": "C48", "title": "extract() either raises or leaves finite masses", "statement": "psd and slurry extract() of a finite package either raises, leaving the package unchanged, or leaves both parts with finite masses.", "quantifier": "every package and argument", "why_tests_cant": "all; negation proved: extract(0.0) from an empty package silently fills both parts with NaN", "anchors": ["auxi/modelling/process/materials/{psd,slurry}.py: MaterialPackage.extract"]}
{"id": "C60", "title": "Thermo package mixing conserves compound masses and enthalpy", "statement": "p + q has for each compound the summed mass, and its enthalpy is exactly the sum of both enthalpies; adding (compound, mass) adds exactly the enthalpy of that mass at the package temperature and keeps the temperature; adding (compound, mass, T) adds the enthalpy at T.", "quantifier": "every pair of packages", "why_tests_cant": "all packages", "anchors": ["auxi/modelling/process/materials/thermo.py: MaterialPackage.__add__"]}
{"id": "C61", "title": "Thermo package splitting conserves compound masses and enthalpy and keeps temperature", "statement": "extract(mass | compound | (compound, mass) | material) leaves remaining + extracted equal to the original in every compound and in enthalpy, both at the original temperature.", "quantifier": "every consistent package", "why_tests_cant": "all", "anchors": ["auxi/modelling/process/materials/thermo.py: MaterialPackage.extract"]}
{"id": "C62", "title": "Enthalpy and temperature stay consistent", "statement": "After any sequence of package operations the stored enthalpy is the enthalpy of the stored compound masses at the stored temperature (to the secant tolerance after operations that set H).", "quantifier": "every operation history", "why_tests_cant": "all histories", "anchors": ["auxi/modelling/process/materials/thermo.py: MaterialPackage.H, T, _calculate_H, _calculate_T"]}
{"id": "C63", "title": "The temperature solver returns a temperature whose enthalpy matches", "statement": "The secant iteration stops only when the residual was below tolerance or the iteration limit was reached; for enthalpy affine in temperature it yields the exact temperature; setting the current H keeps T.", "quantifier": "every enthalpy function", "why_tests_cant": "all functions", "anchors": ["auxi/modelling/process/materials/thermo.py: _calculate_T"]}
{"id": "C64", "title": "Streams mix and split like packages", "statement": "MaterialStream +, * and extract conserve compound mass flows and enthalpy flows.", "quantifier": "every stream", "why_tests_cant": "all", "anchors": ["auxi/modelling/process/materials/thermo.py: MaterialStream"]}
{"id": "C65", "title": "An assay added with add_assay can be used", "statement": "After add_assay has accepted an assay, create_package (and create_stream) with its name gives a package of the requested mass with that composition.", "quantifier": "every material and assay", "why_tests_cant": "all materials; false of the code: the added assay has no custom property entry and every use raises KeyError (proved in general)", "anchors": ["auxi/modelling/process/materials/thermo.py: Material.add_assay, create_package, _get_HHV"]}
{"id": "C68", "title": "Setting an enthalpy sets the temperature that has this enthalpy", "statement": "After p.H = h, where h is the enthalpy of the contents at some temperature t within the data, p.T reads t.", "quantifier": "every package and temperature", "why_tests_cant": "all packages; false of the code for small packages: the stopping tolerance is absolute", "anchors": ["auxi/modelling/process/materials/thermo.py: MaterialPackage.H, _calculate_T"]}
{"id": "C69", "title": "Package operations never produce values that are not finite", "statement": "Mixing, scaling and extracting packages with finite masses and temperature either raises or gives finite masses and temperatures.", "quantifier": "every package, including empty ones", "why_tests_cant": "all packages; false of the code for empty packages (proved for every one of them)", "anchors": ["auxi/modelling/process/materials/thermo.py: MaterialPackage.__add__, _extract_mass"]}
{"id": "C49", "title": "Element masses of thermo packages are conserved", "statement": "Element masses are the sums of compound mass times element fraction, are additive in mixing, conserved in splitting, and add up to the mass of the package.", "quantifier": "every package and element", "why_tests_cant": "all packages", "anchors": ["auxi/modelling/process/materials/thermo.py: MaterialPackage.get_element_masses, get_element_mass"]}
{"id": "C70", "title": "Heat capacity is the temperature derivative of enthalpy; entropy's derivative is Cp/T", "statement": "For each record and phase, H is an antiderivative of Cp and S of Cp/T on the records' ranges including the exponents that integrate to logarithms.", "quantifier": "every record with any exponents, every T > 0 in range", "why_tests_cant": "all reals and coefficient sets", "anchors": ["auxi/tools/chemistry/thermochemistry.py: CpRecord.H, CpRecord.S, Phase.H, Phase.S"]}
{"id": "C71", "title": "Gibbs energy satisfies G = H - T S everywhere", "statement": "Phase.G(T) = Phase.H(T) - T * Phase.S(T) below, inside and above the data range.", "quantifier": "every phase and temperature", "why_tests_cant": "all", "anchors": ["auxi/tools/chemistry/thermochemistry.py: Phase.G"]}
{"id": "C72", "title": "Phase enthalpy and entropy are continuous across record boundaries and into extrapolation", "statement": "Phase.H and Phase.S have no jumps at record boundaries nor at the upper end of the data.", "quantifier": "every well formed phase", "why_tests_cant": "all", "anchors": ["auxi/tools/chemistry/thermochemistry.py: Phase.H, Phase.S"]}
{"id": "C73", "title": "Compound property functions are linear in mass", "statement": "H, S, G and Cp of a compound string are proportional to the mass argument and additive.", "quantifier": "every compound, temperature, mass", "why_tests_cant": "all reals", "anchors": ["auxi/tools/chemistry/thermochemistry.py: Cp, H, S, G"]}
{"id": "C74", "title": "Magnetic contributions are thermodynamically consistent", "statement": "Cp_mag, H_mag, S_mag, G_mag satisfy G = H - T S, dH/dT = Cp and dS/dT = Cp/T on both sides of the critical temperature and agree at it.", "quantifier": "all parameters and temperatures", "why_tests_cant": "real analysis", "anchors": ["auxi/tools/chemistry/thermochemistry.py: Phase.Cp_mag, H_mag, S_mag, G_mag"]}
{"id": "C75", "title": "Above its data a phase's enthalpy is still the integral of its heat capacity", "statement": "For temperatures above the last record the difference of two enthalpies equals the integral of the heat capacity the same phase reports, also for phases with magnetic data.", "quantifier": "every well formed phase and temperatures above the last record", "why_tests_cant": "all phases and temperatures; false of the code for magnetic phases", "anchors": ["auxi/tools/chemistry/thermochemistry.py: Phase.H, Phase.Cp"]}
{"id": "C76", "title": "Reference state: formation enthalpy and standard entropy come back at the start of the data", "statement": "At the lower end of the data a phase's enthalpy and entropy are its reference values (plus the magnetic contribution there), and the module function H of one mole at that temperature is the enthalpy of formation.", "quantifier": "every well formed phase", "why_tests_cant": "all phases", "anchors": ["auxi/tools/chemistry/thermochemistry.py: Phase.H, Phase.S, H"]}
{"id": "C77", "title": "A phase described by a dictionary keeps its magnetic data", "statement": "Constructing a phase from a dictionary with magnetic parameters gives a phase with those parameters.", "quantifier": "every dictionary", "why_tests_cant": "all dictionaries; false of the code", "anchors": ["auxi/tools/chemistry/thermochemistry.py: Phase.__init__"]}
{"id": "C78", "title": "The slope of the Gibbs energy is minus the entropy", "statement": "dG/dT = -S at every temperature, including record boundaries and, for non magnetic phases, the extrapolated range.", "quantifier": "every well formed phase and positive temperature", "why_tests_cant": "all reals; real analysis", "anchors": ["auxi/tools/chemistry/thermochemistry.py: Phase.G, Phase.S"]}
{"id": "C80", "title": "Mixture models reduce to and are bounded by the pure component values", "statement": "Gas mixture viscosity (Herning-Zipperer), and ideal Cp of a mixture lie between the smallest and largest component value; Wilke, Herning-Zipperer and ideal Cp of a pure gas equal the pure value; results do not depend on the scale of the composition.", "quantifier": "every composition", "why_tests_cant": "all", "anchors": ["auxi/tools/materialphysicalproperties/gases.py"]}
{"id": "C81", "title": "Models reject states outside their schema", "statement": "A model's calculate raises rather than returns for a state with a missing or out-of-range entry.", "quantifier": "every state", "why_tests_cant": "all; negation for the models that bypass validation", "anchors": ["auxi/tools/materialphysicalproperties/core.py: Model.calculate"]}
{"id": "C82", "title": "Ideal gas density is proportional to pressure and inversely proportional to temperature; thermal expansion coefficient is consistent", "statement": "RhoTP scales linearly in P and inversely in T; BetaT equals -1/rho d rho/dT; RhoT equals RhoTP at its pressure.", "quantifier": "every T,P>0", "why_tests_cant": "reals", "anchors": ["auxi/tools/materialphysicalproperties/idealgas.py"]}
{"id": "C83", "title": "Coal enthalpy is the integral of coal heat capacity", "statement": "DafHTy's derivative in T is DafCpTy.", "quantifier": "every T>0, every ultimate analysis", "why_tests_cant": "reals", "anchors": ["auxi/tools/materialphysicalproperties/coals.py"]}
{"id": "C84", "title": "Slag viscosity models depend only on composition ratios and are positive", "statement": "Urbain and Riboud give positive viscosity, unchanged when the composition is rescaled.", "quantifier": "every composition, T>0", "why_tests_cant": "reals", "anchors": ["auxi/tools/materialphysicalproperties/slags.py"]}
{"id": "C85", "title": "A model call does not modify the caller's composition", "statement": "calculate leaves the caller's composition dictionary unchanged.", "quantifier": "every composition", "why_tests_cant": "negation for the Riboud model, harmless on repetition", "anchors": ["auxi/tools/materialphysicalproperties/slags.py: Riboud"]}
{"id": "C90", "title": "The natural convection correlation is defined for every angle and Rayleigh number", "statement": "For every inclination in [-90, 90] and Rayleigh number >= 0 exactly the first matching region is selected and the call does not fail.", "quantifier": "all angles and Rayleigh numbers", "why_tests_cant": "a 2-D partition with 22 regions: gaps are single points; the gap is proved and is the only one", "anchors": ["auxi/tools/transportphenomena/heattransfer/naturalconvection.py"]}
{"id": "C91", "title": "Dimensionless numbers obey their scaling laws", "statement": "Re, Gr, Pr, Nu, Sh are invariant under consistent rescaling of units and satisfy their mutual identities (e.g. Ra = Gr Pr).", "quantifier": "all positive arguments", "why_tests_cant": "reals; Ra raises always (proved)", "anchors": ["auxi/tools/transportphenomena/dimensionlessquantities.py"]}
{"id": "C92", "title": "Pressure drop follows Darcy-Weisbach", "statement": "Pressure drop is additive along the pipe, quadratic in velocity, non-negative; the hydraulic diameter of a circle is its diameter; the returned Colebrook factor satisfies the equation solved.", "quantifier": "all arguments", "why_tests_cant": "reals", "anchors": ["auxi/tools/transportphenomena/fluidflow/pressuredrop.py"]}
{"id": "C96", "title": "Reports of a run's ledger can be restricted by date", "statement": "After a model run, a transaction list or balance sheet of the entity's ledger with a start or end given as a date (or a date string) is produced and covers the transactions of those dates.", "quantifier": "every run, every bound", "why_tests_cant": "ranges over all ledgers produced by runs; false of the code: run transactions carry datetimes, which Python refuses to compare with dates; the datetime case is proved", "anchors": ["auxi/modelling/financial/reporting.py", "auxi/core/helpers.py: get_date"]}
{"id": "C66", "title": "Clearing a stream leaves nothing in it", "statement": "After clear() every compound mass flow rate, the total mass flow rate and the enthalpy flow rate are zero.", "quantifier": "every stream", "why_tests_cant": "all streams; false of the code: the enthalpy flow rate keeps its old value (proved for every stream)", "anchors": ["auxi/modelling/process/materials/thermo.py: MaterialStream.clear"]}
{"id": "C67", "title": "Coal assays can be used", "statement": "A package or stream of positive size can be created from an assay that is marked as coal.", "quantifier": "every material with a coal assay", "why_tests_cant": "all materials; false of the code for packages: no such package can be created (proved in general); proved for streams", "anchors": ["auxi/modelling/process/materials/thermo.py: Material.create_package, MaterialPackage.__init__, MaterialStream.__init__"]}
{"id": "C86", "title": "The enthalpy of coal per kilogram does not depend on how much there is of it", "statement": "Scaling a coal stream by k scales its enthalpy flow rate by k and keeps its temperature and heating value.", "quantifier": "every coal stream and factor", "why_tests_cant": "all compositions; false of the code without a heating value (the reference enthalpy is multiplied by the flow rate twice); proved with one", "anchors": ["auxi/modelling/process/materials/thermo.py: MaterialStream._calculate_DH298_coal, _calculate_Hfr_coal, __mul__"]}
{"id": "C87", "title": "Splitting a coal stream conserves flows and enthalpy", "statement": "extract(mfr) of a coal stream gives two streams whose compound flows and enthalpy flows add up to those of the original, both still coal.", "quantifier": "every coal stream and flow rate", "why_tests_cant": "all streams; false of the code: the part is an ordinary stream with another enthalpy (proved); the compound flows do add up (proved for every stream)", "anchors": ["auxi/modelling/process/materials/thermo.py: MaterialStream._extract_mfr"]}
{"id": "C88", "title": "Adding a compound to coal accounts for its heat of combustion", "statement": "After adding a mass of a compound to a coal stream, heating value times flow rate equals what it was before plus the heat of combustion of the compound added.", "quantifier": "every coal stream, compound and mass", "why_tests_cant": "all; false of the code for compounds with carbon: the carbon dioxide formed is computed with the formula 'COs' (carbon, oxygen, osmium); and without a heating value the addition raises; proved for compounds without carbon", "anchors": ["auxi/modelling/process/materials/thermo.py: MaterialStream._update_HHV, __add__"]}
{"id": "C89", "title": "The element flows of a stream can be obtained and add up", "statement": "get_element_mfrs gives the mass flow rate of each element, get_element_mfr gives one of them.", "quantifier": "every stream", "why_tests_cant": "all streams; false of the code: get_element_mfrs always raises (proved); get_element_mfr is proved correct", "anchors": ["auxi/modelling/process/materials/thermo.py: MaterialStream.get_element_mfrs, get_element_mfr"]}
{"id": "C97", "title": "Amounts are masses divided by molar masses and add up", "statement": "For thermo packages and streams get_compound_amount(c) times the molar mass of c is the compound's mass, amount is the sum over all compounds, the list of amounts agrees with the single values, and amounts add up under mixing and splitting.", "quantifier": "every package and stream", "why_tests_cant": "all packages", "anchors": ["auxi/modelling/process/materials/thermo.py: MaterialPackage.amount, get_compound_amount(s), MaterialStream.afr, get_compound_afr(s)"]}
{"id": "C98", "title": "An assay lists mass fractions that sum to one", "statement": "get_assay of a package or stream that is not empty lists for each compound its share of the mass; the shares sum to one.", "quantifier": "every package and stream", "why_tests_cant": "all packages", "anchors": ["auxi/modelling/process/materials/thermo.py: MaterialPackage.get_assay, MaterialStream.get_assay"]}
{"id": "C99", "title": "Mixing coal streams conserves flows, enthalpy and heating value", "statement": "The sum of two streams of one material of which at least one is coal is coal; compound flow rates, enthalpy flow rates and heating value times flow rate add up.", "quantifier": "every pair of streams", "why_tests_cant": "all streams", "anchors": ["auxi/modelling/process/materials/thermo.py: MaterialStream.__add__"]}
{"id": "C93", "title": "Material properties that have no model of their own follow from those that have one", "statement": "Material.alpha defaults to k/(rho Cp), nu to mu/rho, a model given is used instead, a property that can be neither looked up nor derived raises; a material can be created without property models.", "quantifier": "every material, state and set of models", "why_tests_cant": "all models; false of the code for the last part: the default property_models=None always raises TypeError", "anchors": ["auxi/modelling/process/materials/core.py: Material.__init__, alpha, nu"]}
{"id": "C94", "title": "Slag viscosity falls as temperature rises", "statement": "For one slag composition, the viscosity the Urbain or Riboud model returns at a higher temperature is lower.", "quantifier": "every composition without negative entries, every pair of temperatures in the range of liquid slags (below 7244 K)", "why_tests_cant": "reals; false of the Riboud model for fluorspar (proved), proved for compositions without fluorspar and alkalis, and for Urbain up to 9686 K for all", "anchors": ["auxi/tools/materialphysicalproperties/slags.py: UrbainViscosityTx.calculate, RiboudViscosityTx.calculate"]}
{"id": "C95", "title": "Material file reading inverts writing", "statement": "Reading a material file written with the documented layout (distinct assay names, numbers in decimal notation) gives back the compounds or size classes, assays, densities, water fractions and custom properties written, independent of tabs, repeated and surrounding blanks, line ends, lines with too few items and further columns.", "quantifier": "every material description and every way of laying it out", "why_tests_cant": "all strings and layouts", "anchors": ["auxi/modelling/process/materials/{chem,psd,slurry,thermo}.py: Material.__init__, _prepare_lines"]}
{"id": "C100", "title": "A material file that cannot be represented is refused, not misread", "statement": "A file that names an assay twice, has no heading, misses required lines or has a formula or number that cannot be parsed raises an exception; blank lines never make a readable file unreadable.", "quantifier": "every file text", "why_tests_cant": "all texts; both directions fail for some texts, which is proved", "anchors": ["auxi/modelling/process/materials/{chem,psd,slurry,thermo}.py: Material.__init__"]}
{"id": "C101", "title": "More buoyancy means more heat transfer", "statement": "At a fixed angle and in a fluid with constant properties, a longer hot surface or a larger temperature difference gives a larger Nusselt number.", "quantifier": "all fluids with positive properties, angles, lengths and temperatures", "why_tests_cant": "reals; false at Ra = 7 for upward facing surfaces (proved)", "anchors": ["auxi/tools/transportphenomena/heattransfer/naturalconvection.py: IsothermalFlatSurface.Nu_x"]}
{"id": "C102", "title": "Heat transfer coefficients and Nusselt numbers are consistent", "statement": "The coefficients returned by h_x and h_L give back Nu_x and Nu_L through Nu = h L / k, and the average values are 4/3 of the local ones.", "quantifier": "all fluids, angles, lengths and temperatures with a real Nusselt number", "why_tests_cant": "reals", "anchors": ["auxi/tools/transportphenomena/heattransfer/naturalconvection.py: Nu_x, Nu_L, h_x, h_L"]}
{"id": "C103", "title": "Friction factors are positive, fall with the Reynolds number and rise with roughness", "statement": "In their documented ranges the laminar, smooth and Haaland friction factors are positive, strictly decrease with the Reynolds number, and (Haaland) strictly increase with roughness.", "quantifier": "all Reynolds numbers and roughnesses in the documented range", "why_tests_cant": "reals", "anchors": ["auxi/tools/transportphenomena/fluidflow/pressuredrop.py: f_l, f_ts, f_tr_Haaland"]}
{"id": "C104", "title": "Heating any substance of the default data takes energy", "statement": "For every compound and phase in the data files that ship with the package: at every temperature from 25 degrees Celsius upwards (including above the range of the data) the heat capacity is positive, so enthalpy and entropy strictly increase with temperature, entropy is positive, and the Gibbs energy strictly decreases.", "quantifier": "every phase of the 81 shipped compounds, every temperature from 25 degrees upwards, every positive mass, every order of reading the files", "why_tests_cant": "a continuum of temperatures; false of the data for monoclinic sulphur and grey tin (proved)", "anchors": ["auxi/tools/chemistry/data/rao/Compound_*.json", "auxi/tools/chemistry/thermochemistry.py: Cp, H, S, G, load_data_auxi"]}
{"id": "C105", "title": "The default data agree with the stoichiometry tool about molar masses", "statement": "The molar mass stored with each shipped compound is that of its formula, so that asking for molar_mass(formula) kilograms of a substance gives the property of one mole.", "quantifier": "every shipped compound, phase and temperature", "why_tests_cant": "all temperatures; both tools", "anchors": ["auxi/tools/chemistry/data/rao/Compound_*.json", "auxi/tools/chemistry/thermochemistry.py: molar_mass, H", "auxi/tools/chemistry/stoichiometry.py: molar_mass"]}
{"id": "C106", "title": "Every substance of the default data can be used through its text", "statement": "Each phase of each shipped compound is found under formula[phase], all four properties are defined at every temperature above absolute zero, at 25 degrees enthalpy and entropy are the reference values in the file, nothing is overwritten when the files are loaded and the order of reading them does not matter.", "quantifier": "every shipped phase, temperature, mass and order of files", "why_tests_cant": "all orders of files and all temperatures", "anchors": ["auxi/tools/chemistry/data/rao/Compound_*.json", "auxi/tools/chemistry/thermochemistry.py: load_data_auxi, _split_compound_string_, Cp, H, S, G"]}
{"id": "C107", "title": "One enthalpy, one temperature", "statement": "For a package with some mass of shipped substances (other than the two of C104): from 25 degrees upwards enthalpy strictly increases with temperature; every enthalpy of at least that at 25 degrees belongs to exactly one temperature; setting the enthalpy of the current temperature changes nothing; and the temperature of a mixture that reports the enthalpy of its contents lies between those of its parts.", "quantifier": "every material of shipped compounds, every package of it without negative masses, every temperature from 25 degrees upwards", "why_tests_cant": "all packages and temperatures", "anchors": ["auxi/modelling/process/materials/thermo.py: MaterialPackage.H, T, __add__, _calculate_H, _calculate_T", "auxi/tools/chemistry/data/rao/Compound_*.json"]}
{"id": "C108", "title": "A FactSage data file is read as the compound it describes", "statement": "Loading FactSage files gives, under each formula, a compound with the molar mass of the formula and exactly the phases, records and heat capacity terms written in its file, the first record of each phase starting at 298.15 K, whatever the number of phases, records and lines, the spacing, the headings and the order of the files; at 25 degrees enthalpy and entropy are those in the file.", "quantifier": "every set of files laid out as documented, every phase, record, term, spacing and order", "why_tests_cant": "all files", "anchors": ["auxi/tools/chemistry/thermochemistry.py: _read_compound_from_factsage_file_, load_data_factsage, Compound, Phase, CpRecord"]}
{"id": "C109", "title": "Shipped gases and water have all their properties over the range of their data", "statement": "At every temperature within its documented range, every shipped gas gives a defined, positive heat capacity, viscosity, conductivity, density, thermal expansion, kinematic viscosity and thermal diffusivity, and refuses temperatures outside it; water likewise, except that its thermal expansion changes sign near 277 K; every mixture of the gases other than air has a positive viscosity (Wilke, Herning-Zipperer) and heat capacity at every temperature all its gases cover, the latter two between those of the gases.", "quantifier": "every shipped gas, every temperature, every composition", "why_tests_cant": "a continuum of temperatures and all compositions", "anchors": ["auxi/tools/materialphysicalproperties/gases.py: materials, WilkeMuTx, HerningZippererMuTx, IdealGasCpTx", "auxi/tools/materialphysicalproperties/liquids.py", "auxi/tools/materialphysicalproperties/data"]}
{"id": "C110", "title": "The shipped fluid properties vary and fit together as physics requires", "statement": "Over the range of its data a hotter gas is more viscous, conducts better, is lighter and has a larger kinematic viscosity; its Prandtl number is between 0.66 and 1.03 and its density within 3 % of the ideal gas law. Hotter water has a lower viscosity and kinematic viscosity; its kinematic viscosity is viscosity over density; its density falls exactly where its thermal expansion is positive.", "quantifier": "every shipped gas and water, every pair of temperatures", "why_tests_cant": "a continuum of temperatures", "anchors": ["auxi/tools/materialphysicalproperties/gases.py: materials", "auxi/tools/materialphysicalproperties/liquids.py", "auxi/tools/materialphysicalproperties/data"]}
{"id": "C111", "title": "Thermochemistry and fluid properties agree on the heat capacity of a gas", "statement": "For every gas that is in both the physical property and the thermochemical data, the heat capacity per mass is the same within 5 % at every temperature from 25 degrees upwards that both cover.", "quantifier": "the six gases in both sources, every temperature and mass", "why_tests_cant": "a continuum of temperatures", "anchors": ["auxi/tools/materialphysicalproperties/gases.py: materials", "auxi/tools/chemistry/thermochemistry.py: Cp", "auxi/tools/chemistry/data/rao", "auxi/tools/materialphysicalproperties/data"]}
{"id": "C112", "title": "A report's CSV file reads back as the report's table", "statement": "The file that a report rendered as CSV writes, read by any CSV reader, gives exactly the rows and cells of the table, whatever the cells contain (commas, quotes, line breaks, nothing), so that different tables have different files.", "quantifier": "every table, every cell text, every output path", "why_tests_cant": "all texts", "anchors": ["auxi/core/reporting.py: Report._render_csv_, render"]}
{"id": "C113", "title": "A data set template can be read, names its material, and does not replace another's", "statement": "create_template followed by reading the data set gives the material name as it was given, with the four documented columns; in general each column symbol gives the name, display symbol and units of its own column; a file without the documented header is refused; templates of different materials are different files.", "quantifier": "every material name, every header content, every text", "why_tests_cant": "all names and texts; the last part is false of the code for names that differ in case only (proved)", "anchors": ["auxi/tools/materialphysicalproperties/core.py: DataSet.create_template, DataSet._read_header_information"]}
{"id": "C114", "title": "What is written to a file is what is read from it", "statement": "An object written with write (a compound with write_compound_to_auxi_file) and read back is the same object: every attribute, list item and dictionary entry is equal, and writing it again gives the same file. A compound read back gives the same heat capacity, enthalpy, entropy and Gibbs energy. Loading a directory to which compounds were written gives, whatever the order of the files, for each formula the compound written last, and the module functions give the same results as before writing.", "quantifier": "every tree of attributes, strings (all Unicode characters) and numbers, every compound, any number of write/read rounds, every sequence of writes and every order of the files", "why_tests_cant": "all object trees, all texts, all histories and all directory orders; false of the code for phases and records on their own, for phases that are given magnetic data later, and when a file cannot be read (proved)", "anchors": ["auxi/core/objects.py: Object.__str__, Object.write, Object.read", "auxi/tools/chemistry/thermochemistry.py: Phase._init, Compound._init, Phase.__str__, CpRecord.__str__, write_compound_to_auxi_file, load_data_auxi"]}
{"id": "C115", "title": "Chemical packages share nothing", "statement": "However packages are created, cloned, added, multiplied, added to and extracted from, an operation changes only the package it is called on: every other package, and every assay, keeps its contents, and each package behaves as a value of its own. This includes packages and assays made from lists that the caller passes.", "quantifier": "every program of package operations over every set of materials, also when operations raise", "why_tests_cant": "all histories and all ways in which objects can refer to one another; false of the code for lists the caller passes (proved)", "anchors": ["auxi/modelling/process/materials/chem.py: MaterialPackage.__init__, clone, __add__, __mul__, extract, add_to, Material.create_package, add_assay"]}
{"id": "C116", "title": "Rounding does not lose material", "statement": "In floating point, whatever is extracted from a chemical package: no mass becomes negative or grows, and of every compound what is extracted and what is left add up to what there was within two roundings (exactly for a compound extracted by name), also over any number of extractions. get_mass, the mass of a package created from an assay, and the mass of an extracted package are the exact sum, the requested mass and the requested mass within one rounding per compound (and two more). A mass added to a compound is rounded once.", "quantifier": "every package of machine numbers, every argument, every number of compounds, every sequence of extractions, every rounding that satisfies the rules of IEEE 754", "why_tests_cant": "all floating point numbers, lengths and histories; tests with assertAlmostEqual cannot show a bound", "anchors": ["auxi/modelling/process/materials/chem.py: MaterialPackage.extract, MaterialPackage.__add__, MaterialPackage.get_mass, Material.create_package"]}
{"id": "C117", "title": "What is in a package can be taken out of it", "statement": "In floating point, a mass up to get_mass() can always be extracted from a chemical package that is not empty; extracting get_mass() itself gives exactly everything and leaves exactly nothing. A package created with a given mass gives that mass, and when part of a package's mass has been extracted the difference can be extracted.", "quantifier": "every package of machine numbers, every mass", "why_tests_cant": "all floating point numbers; false of the code for the last sentence (proved)", "anchors": ["auxi/modelling/process/materials/chem.py: MaterialPackage.extract, MaterialPackage.get_mass, Material.create_package"]}
{"id": "C118", "title": "The balance sheet balances in floating point", "statement": "In floating point, the totals and entries of a balance sheet and the total of a transaction list are those of exact arithmetic up to one rounding per addition, relative to the sizes of all amounts. The two printed totals of a ledger whose revenue and expenses net to zero are equal; they are whenever amounts are whole cents (then every printed number is exactly the true one) or small multiples of one power of two, and otherwise differ by at most one cent, while the number of transactions times the sizes of their amounts stays below a stated bound.", "quantifier": "every chart of accounts, every list of transactions with float amounts, every end date, every rounding that satisfies the rules of IEEE 754", "why_tests_cant": "all floating point amounts and ledgers of any length; that the printed totals are always equal is false of the code (proved)", "anchors": ["auxi/modelling/financial/reporting.py: BalanceSheet._sum_amounts_per_account_, BalanceSheet._generate_table_, TransactionList._generate_table_"]}
{"id": "C119", "title": "Psd and slurry packages do not share their contents", "statement": "No operation on one psd or slurry material package changes another package or an assay: after any history of create_package, clone, +, *, add_to, extract and clear, each package has the contents that it would have if packages were plain values, whatever the arrays are that the objects hold; a package that a history does not add to, extract from or clear keeps its contents. The constructor and add_assay keep the array they are given, so this needs arrays of their own there.", "quantifier": "every heap in which no two packages and no assay share an array, every history of operations on it, every argument", "why_tests_cant": "all aliasing patterns and all histories; that it holds for arrays passed to the constructor or add_assay by the caller is false of the code (proved)", "anchors": ["auxi/modelling/process/materials/psd.py: Material, MaterialPackage", "auxi/modelling/process/materials/slurry.py: Material, MaterialPackage"]}
{"id": "C120", "title": "Thermochemical packages do not share their contents", "statement": "No operation on one thermo material package changes another package or an assay: after any history of create_package, clone, +, *, extract (also of a whole material), clear and setting H, T or P, each package has the masses, temperature, pressure and enthalpy that it would have if packages were plain values; a package that a history does not extract from, clear or set keeps them. The constructor and add_assay keep the array they are given, so this needs arrays of their own there. A clone's custom properties are its own too.", "quantifier": "every heap in which no two packages and no assay share an array, every data base of compounds, every history of operations, every argument", "why_tests_cant": "all aliasing patterns and all histories; false of the code for arrays passed by the caller, and for custom_properties of clones (proved)", "anchors": ["auxi/modelling/process/materials/thermo.py: Material, MaterialPackage"]}
{"id": "C121", "title": "Thermochemical streams do not share their contents", "statement": "No operation on one thermo material stream changes another stream or an assay: after any history of create_stream, clone, +, *, extract (also of a whole material, and for coal with its heating value), clear and setting Hfr, T, HHV or P, whether a call succeeds or raises half-way, each stream has the mass flow rates, temperature, pressure, enthalpy and heating value that it would have if streams were plain values; a stream that a history does not extract from, clear or set keeps them. The constructor and add_assay keep the array they are given, so this needs arrays of their own there. A clone's custom properties are its own too.", "quantifier": "every heap in which no two streams and no assay share an array, every data base of compounds, every history of operations, every argument", "why_tests_cant": "all aliasing patterns and all histories; false of the code for arrays passed by the caller, and for custom_properties of clones (proved)", "anchors": ["auxi/modelling/process/materials/thermo.py: Material, MaterialStream"]}
{"id": "C122", "title": "A printout shows what is in it", "statement": "print(x) of a chem, psd, slurry or thermo material, package or stream succeeds and gives, line by line, exactly the figures of x under the right labels: totals, pressure, temperature, enthalpy, one line per compound or size class with its own mass (and, in thermo, its share of the mass and of the amount), one column per assay in alphabetical order, a total per assay, and the custom properties in alphabetical order. Two packages of one material print alike only if they have the same contents. The printed table of a chem or psd material, saved as a material file, is read back as the same material.", "quantifier": "every material, package and stream, every name, every way to write numbers", "why_tests_cant": "all contents and all formattings; false of the code for compounds listed twice, numbers of twenty or more characters, total masses that are not positive, thermo materials with custom properties to which an assay is added, and coal streams without a heating value (all proved)", "anchors": ["auxi/modelling/process/materials/chem.py: Material.__str__, MaterialPackage.__str__", "auxi/modelling/process/materials/psd.py: Material.__str__, MaterialPackage.__str__", "auxi/modelling/process/materials/slurry.py: Material.__str__, MaterialPackage.__str__", "auxi/modelling/process/materials/thermo.py: Material.__str__, MaterialPackage.__str__, MaterialStream.__str__"]}
{"id": "C123", "title": "An object used as a key is found again", "statement": "An auxi object can be used as a key of a dictionary or an element of a set: d[x] is what was last assigned to d[x], however x and the other objects change in between, every object occurs once, and different objects are different keys even if they print alike.", "quantifier": "every history of assignments to a dictionary, deletions from it and changes of the objects, every hash function of texts", "why_tests_cant": "all histories; false of the code when the printout of a key changes, and for coal streams without a heating value (proved)", "anchors": ["auxi/core/objects.py: Object.__hash__, Object.__str__"]}
{"id": "C124", "title": "A loan keeps to its terms when they are changed or when it is repaid in longer intervals", "statement": "Setting the amount, interest rate or duration of a loan, at any time, makes the next run that of a loan created with the new terms; a change that is refused leaves the loan as it was; and with any repayment interval the loan is repaid when its duration is over.", "quantifier": "every loan, every new value, every time of the change (before, in the middle of, or after a run), every clock, every interval", "why_tests_cant": "all terms, clocks and times of the change; false of the code for the duration, for a refused rate and for intervals of two months or more (proved)", "anchors": ["auxi/modelling/business/basic.py: BasicLoanActivity.amount, interest_rate, duration, prepare_to_run, run"]}
{"id": "C125", "title": "A loan is repaid in spite of rounding", "statement": "With Python's floats a loan is set up for every positive rate and duration, makes the same transactions as with exact numbers up to rounding of the amounts, and when its time is up its account is zero up to a rounding error that is bounded in terms of amount, rate and duration (half a cent for loans of up to a million over up to 40 years).", "quantifier": "every rounding that satisfies IEEE 754's error bounds, every power function of bounded relative error, every loan, clock and number of periods", "why_tests_cant": "errors accumulate over an unbounded number of months; false of the code for tiny positive rates (proved)", "anchors": ["auxi/modelling/business/basic.py: BasicLoanActivity._update_monthly_payment_, interest_rate, run"]}
{"id": "C126", "title": "The element mass dictionary of a package or stream", "statement": "The element mass (or mass flow rate) dictionary of a package or stream has one entry for each element of its material; its value is what is returned when that element alone is asked for, and together the values are the mass (flow rate) of the package (stream).", "quantifier": "every material with readable formulas, every package and stream", "why_tests_cant": "all materials and contents; false of the code for streams (proved)", "anchors": ["auxi/modelling/process/materials/chem.py: MaterialPackage.get_element_mass_dictionary", "auxi/modelling/process/materials/thermo.py: MaterialPackage.get_element_mass_dictionary, MaterialStream.get_element_mfr_dictionary"]}
{"id": "C127", "title": "The dates of a run stay in the calendar", "statement": "A run whose start and horizon lie between datetime.min and datetime.max does not raise because of a date, and every transaction it books is dated from the start of the run on and before its horizon.", "quantifier": "every model, clock and number of periods; runs that succeed and runs that raise for another reason", "why_tests_cant": "all start dates and horizons up to the end of the calendar; false of the code in the year 9999 (proved)", "anchors": ["auxi/core/time.py: Clock.get_datetime_at_period_ix", "auxi/modelling/business/models.py: TimeBasedModel.run", "auxi/modelling/business/structure.py: Activity.prepare_to_run, Entity.prepare_to_run, Entity._perform_year_end_procedure"]}
{"id": "C128", "title": "A run that raised can be explained, repeated and repaired", "statement": "When a run raises, one of the entities raises the same exception in the same period when it is run on its own, every ledger is a first part of the ledger its entity has after running on its own, and no year is closed partly. Running the model again has the same outcome; running it after its charts of accounts were corrected has the outcome it would have had if they had been correct from the start.", "quantifier": "every model, every point at which a run can raise, every change to the charts of accounts", "why_tests_cant": "all failure points and histories of runs", "anchors": ["auxi/modelling/business/models.py: TimeBasedModel.run, TimeBasedModel.prepare_to_run", "auxi/modelling/business/structure.py: Entity.run, Entity.prepare_to_run, Component.run, Activity.prepare_to_run"]}
{"id": "C129", "title": "The year end leaves nothing in the accounts it passes amounts through", "statement": "After a year is closed the gross profit account and the income summary account, which only collect what is closed, net to zero over the year, and no closing transaction has an amount of zero.", "quantifier": "every entity, chart, clock, number of periods and closed year in which no transaction has income statement accounts on both sides and no activity books on the two accounts", "why_tests_cant": "all ledgers of a year, of any length and sign; false of the code: the gross profit account ends at minus twice the gross profit, the income summary of a year with a loss at twice the loss (proved)", "anchors": ["auxi/modelling/business/structure.py: Entity._perform_year_end_gross_profit, Entity._perform_year_end_income_summary, Entity._perform_year_end_retained_earnings"]}
{"id": "C130", "title": "Removing a component or entity by name removes one and only that", "statement": "remove_component and remove_entity take away the last child of the given name and keep all others in order, with everything in them; if there is no child of that name nothing changes. Removing what was just created restores the parent.", "quantifier": "every component, entity and model, with any number of children of any names", "why_tests_cant": "all trees, including children of the same name", "anchors": ["auxi/modelling/business/structure.py: Component.remove_component, Entity.remove_component", "auxi/modelling/business/models.py: TimeBasedModel.remove_entity"]}
{"id": "C131", "title": "The assay of a package, and packages made from it", "statement": "get_assay gives, for every compound or size class, its share of the mass, and the shares add up to one. Added to the material with add_assay, a package's assay makes packages of the same composition: create_package with the mass of the package gives the same masses, with or without normalisation (for a slurry, with its solid density and share of water, also the same water).", "quantifier": "every package and stream with a nonzero total, every name that is not yet an assay", "why_tests_cant": "all contents; false of the code for thermochemical materials, whose added assays cannot be used, and packages without mass have no assay: chem raises, psd and thermo return numbers that are not finite (proved)", "anchors": ["auxi/modelling/process/materials/chem.py: MaterialPackage.get_assay, Material.add_assay, Material.create_package", "auxi/modelling/process/materials/psd.py: MaterialPackage.get_assay, Material.add_assay, Material.create_package", "auxi/modelling/process/materials/slurry.py: MaterialPackage.get_assay, Material.add_assay, Material.create_package", "auxi/modelling/process/materials/thermo.py: MaterialPackage.get_assay, MaterialStream.get_assay, Material.add_assay, Material.create_package"]}
{"id": "C132", "title": "Dates given as text are read as the days they name", "statement": "A report bound or an activity's start or end given as text is accepted exactly if it is written year-month-day (four digits, one or two, one or two) and names a day of the calendar; it then stands for that day (for an activity: for midnight of it), so that what isoformat() writes is read back and a report covers both days it is bounded by. Any other text raises ValueError before anything is reported. Date objects are used as they are.", "quantifier": "every text, every day of the years 1 to 9999, every ledger", "why_tests_cant": "all strings and days; tests try one", "anchors": ["auxi/core/helpers.py: get_date", "auxi/modelling/business/structure.py: Activity._get_date_", "auxi/modelling/financial/reporting.py: TransactionList.__init__, BalanceSheet.__init__, IncomeStatement.__init__"]}
{"id": "C133", "title": "A model fitted to a data set describes the data", "statement": "PolynomialModelT.create gives a model with the data set's material, names, symbols and units, that can be called at every temperature between the lowest and the highest of the data and raises a validation error elsewhere. If the data lie on a polynomial of the degree asked for, the model gives the data back, and with more different temperatures than the degree it is that polynomial; the order of the rows does not matter; a higher degree is never further from the data; over the data the errors add up to zero. A missing column, a negative degree and a data set without rows are refused.", "quantifier": "every data set, property, degree and temperature; every procedure that solves the least squares problem", "why_tests_cant": "all data; tests fit one data set", "anchors": ["auxi/tools/materialphysicalproperties/polynomial.py: PolynomialModelT.create, PolynomialModelT.__init__, PolynomialModelT.calculate", "auxi/tools/materialphysicalproperties/core.py: DataSet, Model.__call__, Model.calculate"]}
{"id": "C134", "title": "The catalogue of compounds is what can be asked", "statement": "list_compounds prints a heading and then one line for each compound that is loaded, with the names of its phases, compounds and phases in the order of their names; it does not depend on the order in which the compounds were loaded. Cp, H, S and G raise KeyError for a formula that is not listed, an exception for a phase that is not listed for its formula, and answer for every phase that is listed, at every temperature above absolute zero and every mass, if the compound has a molar mass and the phase has heat capacity data; with the default data they answer for all that is listed. A compound's reference is the text in the list of references; without a reference it is empty.", "quantifier": "every set of loaded compounds, every order of loading, every formula and phase name without brackets, every temperature above absolute zero, every mass", "why_tests_cant": "all sets of compounds and all queries; tests load one set", "anchors": ["auxi/tools/chemistry/thermochemistry.py: list_compounds, Compound.get_phase_list, Compound.get_reference, get_datafile_references, Cp, H, S, G"]}
{"id": "C135", "title": "The income statement is right in floating point", "statement": "With the machine's floats, gross revenues, total expenses, net income and every entry of an income statement are the exact ones within a few roundings for each transaction, relative to the sizes of the amounts, and the statement is refused exactly when the exact one is. For amounts in whole cents every printed number is exactly right, a profit is printed plainly, a loss in parentheses, and a month that breaks even plainly.", "quantifier": "every chart of accounts, every component, every period, every list of transactions, every rounding that satisfies the IEEE rules; for the printed numbers all whole-cent amounts with (4n+3) times their sum at most 1e13", "why_tests_cant": "all lists of transactions and all amounts; tests use a few amounts", "anchors": ["auxi/modelling/financial/reporting.py: IncomeStatement._sum_amounts_per_account_, IncomeStatement.generate_report"]}
{"id": "C136", "title": "Whatever is done with a plant of packages, nothing is lost", "statement": "However often packages (or streams) of a plant are split with extract and joined with +, in any order, the total over all of them stays what it was: the mass of every compound and of every element for chem packages, of every size class for psd packages, of every size class, the water and the volume for slurry packages, of every compound and the enthalpy for thermo packages, the flow rate of every compound and the enthalpy flow rate for streams.", "quantifier": "every plant (list of packages), every sequence of successful extractions and additions of any length", "why_tests_cant": "sequences of any length and all their interleavings; a test runs one sequence", "anchors": ["auxi/modelling/process/materials/chem.py: MaterialPackage.__add__, MaterialPackage.extract", "auxi/modelling/process/materials/psd.py: MaterialPackage.__add__, MaterialPackage.extract", "auxi/modelling/process/materials/slurry.py: MaterialPackage.__add__, MaterialPackage.extract", "auxi/modelling/process/materials/thermo.py: MaterialPackage.__add__, MaterialPackage.extract, MaterialStream.__add__, MaterialStream.extract"]}
{"id": "C137", "title": "Stoichiometric results in floating point are right to the last digits", "statement": "The stoichiometry functions, calculated with the machine's floats, fail exactly when the exact calculation fails; otherwise coefficients are exact, and molar masses, amounts, masses, fractions and conversions differ from the exact values by at most a stated number of roundings that depends only on the number of elements and compounds. Fractions lie between 0 and 1 and add up to 1 within one rounding each and one more; amount to mass and back, and conversion to another compound and back, return the starting value within two and four roundings.", "quantifier": "every text as a formula (coefficients up to 2^53), every non-negative mass or amount that is not denormally small, every dictionary of compounds, every rounding that satisfies the IEEE rules (and the doubles in particular)", "why_tests_cant": "relative errors for all formulas and all masses; tests compare a few results with a tolerance", "anchors": ["auxi/tools/chemistry/stoichiometry.py: molar_mass, amount, mass, amounts, masses, amount_fractions, mass_fractions, stoichiometry_coefficient, element_mass_fraction, element_mass_fractions, convert_compound"]}
{"id": "C138", "title": "A mass that is not a number never goes unnoticed", "statement": "The mass of a psd or slurry package is a finite number exactly when all the masses in it are. Whatever is extracted from the packages of a plant and whichever packages are added, a mass that is infinite or not a number stays visible in one of them, and a multiple of a package is finite only if the package and the factor are. Clearing a package leaves nothing in it, whatever was in it.", "quantifier": "every psd and slurry package with any masses (finite, infinite, not a number), every sequence of extractions and additions", "why_tests_cant": "all combinations of special numbers and all histories; tests use finite masses", "anchors": ["auxi/modelling/process/materials/psd.py: MaterialPackage.get_mass, MaterialPackage.extract, MaterialPackage.__add__, MaterialPackage.__mul__, MaterialPackage.clear", "auxi/modelling/process/materials/slurry.py: MaterialPackage.get_mass, MaterialPackage.extract, MaterialPackage.__add__, MaterialPackage.clear"]}
{"id": "C139", "title": "Rounding does not lose material in a plant", "statement": "With the arithmetic of the machine, get_mass of a psd or slurry package is the sum of its masses within about one rounding for each size class, in whatever order numpy adds. Extracting never leaves a negative mass and never makes one larger, conserves every size class and the water within about two roundings, and gives the requested mass within about one rounding for each size class; extracting get_mass() takes exactly everything and leaves exactly nothing. Adding rounds each mass once. So however often the psd, slurry or chem packages of a plant are split and joined, the mass of every size class, compound and of the water in it drifts by at most about two roundings for each step.", "quantifier": "every package of machine numbers, every mass, every order of summation, every sequence of extractions and additions", "why_tests_cant": "rounding differs for every number and errors could accumulate over long histories; tests compare a few cases within a tolerance", "anchors": ["auxi/modelling/process/materials/psd.py: MaterialPackage.get_mass, MaterialPackage.extract, MaterialPackage.__add__", "auxi/modelling/process/materials/slurry.py: MaterialPackage.get_mass, MaterialPackage.extract, MaterialPackage.__add__", "auxi/modelling/process/materials/chem.py: MaterialPackage.extract, MaterialPackage.__add__"]}
{"id": "C140", "title": "The reports of a ledger without arguments cover everything in it", "statement": "A transaction created in a general ledger is put at its end with what was given. The transaction list, balance sheet and income statement of a ledger, called without bounds, can be made and cover every transaction in it, in every format.", "quantifier": "every ledger, every list of created transactions, with and without the optional arguments, every format and output path", "why_tests_cant": "all combinations of optional arguments in all ledgers; unit tests call the reports on ledgers of one kind", "anchors": ["auxi/modelling/financial/des.py: GeneralLedger.create_transaction, GeneralLedger.transaction_list, GeneralLedger.balance_sheet, GeneralLedger.income_statement"]}
{"id": "C141", "title": "A model built through the API runs to the end and its reports can be made", "statement": "A business model built by any sequence of calls can be run for any number of periods without an exception, and afterwards the transaction list, the balance sheet and the income statement of every entity can be made without arguments, in every format, and cover every transaction of the entity's ledger. In particular the example that is shipped does so.", "quantifier": "every sequence of calls building a model, every clock and number of periods before the year 9999, every format and output path", "why_tests_cant": "unbounded histories and runs; the failure shows only at a year end or when a report is asked for", "anchors": ["auxi/modelling/business/models.py: TimeBasedModel.run", "auxi/modelling/business/structure.py: Entity.run, Component.add_activity", "auxi/modelling/financial/des.py: GeneralLedger", "auxi/examples/courier_example.py"]}
{"id": "C142", "title": "A path relative to a module is found by walking from the module's directory", "statement": "get_path_relative_to_module returns the absolute path reached by walking from the directory of the module file along the target: '.' stays, '..' goes to the parent, anything else goes down. The answer has no empty component, '.' or '..'; it does not depend on the working directory when the module's path is absolute; a target without '..' stays in or below the module's directory; an absolute target is returned whatever the module; making the answer absolute again changes nothing; the default thermochemical data directory is data/rao beside the module.", "quantifier": "every module path, target and working directory", "why_tests_cant": "all texts with any number of slashes and dots; a test tries a few", "anchors": ["auxi/core/helpers.py: get_path_relative_to_module", "auxi/tools/chemistry/thermochemistry.py: _get_default_data_path_"]}
{"id": "C143", "title": "Every entry of a bibliography file can be looked up", "statement": "After a BibTeX file was loaded, looking up the key of any of its entries returns that entry: its type, its key and all of its fields. A key that no entry has raises KeyError. This holds for the bibliography that is shipped.", "quantifier": "every file (list of entries of any types, keys and fields) and every key", "why_tests_cant": "all files; a test looks one book up in one file", "anchors": ["auxi/core/bibliography.py: Database", "auxi/core/data/bibliography.bib"]}
{"id": "C144", "title": "Projects, variables, variable groups and process models can be made and keep what they are given", "statement": "Each of the constructors of modelling.core and modelling.process.core returns an object with the name, description and other attributes it was given; calling a variable or a group returns its value; each process model has parameters, input variables and output variables of its own.", "quantifier": "every choice of arguments of every constructor", "why_tests_cant": "all argument values; the test of one class constructs one object", "anchors": ["auxi/modelling/core.py: Project, Variable, VariableGroup", "auxi/modelling/process/core.py: Model, SteadyStateModel, DynamicModel", "auxi/core/objects.py: NamedObject"]}
{"id": "C145", "title": "Reports of adjoining periods add up and the reports agree with each other", "statement": "Cut a period in two at any date: the transaction list of the whole period is the lists of the two parts one after the other and its total is the sum of theirs; the income statement of the whole shows the sums of the figures and net incomes of the parts; from one balance sheet to a later one each account changes by exactly what was posted to it in between. The order in which transactions were entered does not change a balance sheet. In a ledger without closing transactions the balance sheet is out of balance by exactly the net income of the income statement.", "quantifier": "every ledger, chart of accounts, cut and period", "why_tests_cant": "all ledgers and all ways of cutting a period; a test looks at one report of one ledger", "anchors": ["auxi/modelling/financial/reporting.py: TransactionList, BalanceSheet, IncomeStatement"]}
{"id": "C146", "title": "What an activity posts does not depend on the other activities", "statement": "An entity that has the activities of two others, in any components and in any order, posts in a run what those two post and nothing else; regrouping or reordering activities changes no account's total; the transactions that bear an activity's path are exactly, and in order, those the activity posts in a model where it is alone.", "quantifier": "every model that runs, every division of its activities, every arrangement in components", "why_tests_cant": "all models and all ways of dividing their activities; a test runs one model", "anchors": ["auxi/modelling/business/structure.py: Entity.run, Component.run", "auxi/modelling/business/basic.py: BasicActivity.run, BasicLoanActivity.run"]}
{"id": "C147", "title": "A longer run begins like a shorter one", "statement": "Running a model for more periods posts first exactly what the shorter run posts: the horizon decides only how far the run goes, not what happens in a period.", "quantifier": "every model, every pair of horizons", "why_tests_cant": "all models and horizons; a test compares two runs", "anchors": ["auxi/modelling/business/structure.py: Activity.prepare_to_run, Activity._meet_execution_criteria", "auxi/modelling/business/models.py: TimeBasedModel.run"]}
{"id": "C148", "title": "Thermochemical packages and streams conserve mass and energy up to rounding", "statement": "In floating point: whatever part is extracted from a thermochemical package, of every compound the two parts add up to what there was within two roundings, no mass becomes negative or grows, temperature and pressure are kept, each part has the enthalpy of its masses at its temperature up to the roundings of computing it, and so their enthalpies add up to the one there was; a requested mass is delivered within one rounding per compound and two more; adding packages rounds each mass and the enthalpy once; extracting a material moves its compounds exactly; streams behave alike, with flow rates for masses; after any number of splits and joins the mass of each compound in the plant has drifted by at most about two roundings per step, and the enthalpy by at most the accuracy of the temperature solver and some roundings per step.", "quantifier": "all packages of finite non-negative floats, all specific enthalpies, all orders in which numpy may add, all sequences of splits and joins, every IEEE rounding", "why_tests_cant": "the error of a long sequence of float operations depends on all values and on the order of summation; a test checks some to a chosen tolerance", "anchors": ["auxi/modelling/process/materials/thermo.py: MaterialPackage.extract, _extract_mass, _extract_compound, _extract_compound_mass, _extract_material, __add__, __mul__, _calculate_H, T; MaterialStream: the same", "auxi/tools/chemistry/thermochemistry.py: H, _finalise_result_"]}
{"id": "C149", "title": "Packages can be reckoned with like quantities", "statement": "The order and the grouping in which packages are added do not matter; scaling distributes over adding, scaling twice is scaling by the product, a package added to itself is the package times two; adding an empty package changes nothing; what was extracted from a package, added again, gives the package there was.", "quantifier": "all packages of all four kinds of materials, all factors and all extractions", "why_tests_cant": "algebraic laws over all packages; a test checks one sum", "anchors": ["auxi/modelling/process/materials/psd.py, slurry.py, chem.py, thermo.py: MaterialPackage.__add__, __mul__, extract"]}
{"id": "C150", "title": "Printed amounts are right to half a cent, and printed columns add up", "statement": "Every amount in a report is printed as a decimal number with two decimals that reads as the whole number of cents nearest to the amount; whole cents are printed exactly; a larger amount is never printed as a smaller number; amounts printed alike differ by at most a cent; an amount and its negative show the same digits; the amounts printed in a column add up to the printed total.", "quantifier": "all amounts, all lists of amounts", "why_tests_cant": "rounding over all numbers, including ties and signs; a test prints a few", "anchors": ["auxi/modelling/financial/reporting.py: TransactionList._generate_table_, BalanceSheet._generate_table_, IncomeStatement._generate_table_"]}
{"id": "C151", "title": "The CSV file of a report tells what the ledger holds", "statement": "The CSV file of a transaction list reads as a header, one row per selected transaction in date order with its date, source, name, accounts, description and amount to half a cent, and the total to half a cent; dates in it can be given back to the reports; different dates have different texts; two transaction lists with the same file list the same transactions; the file of a balance sheet shows equal totals when the revenue and expense accounts net to zero, and only then up to a cent; after the run of a model the file holds every transaction of the ledger once.", "quantifier": "all ledgers, periods, texts in names and descriptions, dates and amounts; all models that run", "why_tests_cant": "what is in the file depends on every name (commas, quotes, line breaks) and every amount; a test compares one file", "anchors": ["auxi/core/reporting.py: Report._render_csv_", "auxi/modelling/financial/reporting.py: TransactionList, BalanceSheet", "auxi/core/helpers.py: get_date"]}
{"id": "C152", "title": "Objects that share parts are read back sharing the same parts", "statement": "An object that is written to a file and read back with Object.write and Object.read looks the same along every path of attributes and list positions, and two paths lead to one and the same object afterwards exactly if they did before, whatever parts are shared and whatever cycles there are: the components of an entity still book into the entity's own ledger. Writing what was read gives the same file. Two objects have the same text exactly if they cannot be told apart.", "quantifier": "all graphs of instances and lists, all paths", "why_tests_cant": "sharing and cycles of any shape; a test reads back one tree", "anchors": ["auxi/core/objects.py: Object.__str__, Object.write, Object.read", "auxi/modelling/business/structure.py: Entity.__init__, Component.__init__"]}
{"id": "C153", "title": "Coal releases its heating value when burned, and heating it takes the heat its model says", "statement": "A stream of coal at 25 degrees with a heating value of v MJ/kg holds v MJ per kilogram of coal more than its ash and water together with the products of burning its elements (CO2, liquid water, SO2, O2, N2). Setting the temperature of a coal stream changes its enthalpy flow rate by what the ash and water take plus, per kilogram of organic matter, the integral of the heat capacity that DafCpTy gives for its ultimate analysis. Without a given heating value, the heat released is that of burning the elements.", "quantifier": "all materials, coal compositions, heating values and temperatures above absolute zero", "why_tests_cant": "relates enthalpies of streams to the heating value for every composition; tests compare two stored numbers", "anchors": ["auxi/modelling/process/materials/thermo.py: MaterialStream._calculate_DH298_coal, _calculate_Hfr_coal, HHV, T", "auxi/tools/materialphysicalproperties/coals.py: DafHTy, DafCpTy"]}
{"id": "C154", "title": "The unit in which amounts of money are given does not matter", "statement": "A model in which every amount of money (amounts of basic activities and loans, and what a ledger already holds) is multiplied by the same positive factor runs as the model does: the same transactions at the same dates on the same accounts, with their amounts multiplied by the factor, year-end closings included; and it fails when the model fails. A loan over k times the amount is paid back in k times the monthly payment. Transaction list, balance sheet and income statement of ledgers in another unit are the same tables with all amounts and totals in that unit.", "quantifier": "all models, factors, ledgers, accounts, periods and dates", "why_tests_cant": "relates two whole runs for every model and factor", "anchors": ["auxi/modelling/business/models.py: TimeBasedModel.run", "auxi/modelling/business/structure.py: Entity.run, perform_year_end_procedure", "auxi/modelling/business/basic.py", "auxi/modelling/financial/reporting.py"]}
{"id": "C155", "title": "The pipe flow correlations answer with a positive number or refuse, and refuse what is no flow", "statement": "Every dimensionless number, friction factor (laminar, smooth, Haaland), hydraulic diameter and pressure drop either returns a number or raises: ZeroDivisionError exactly where its formula has a zero denominator, ValueError exactly where the argument of its logarithm is not positive, TypeError exactly for a negative relative roughness, nothing else. In turbulent flow (Re from 4000, relative roughness up to 0.05) smooth and Haaland friction factors are always returned and positive. The unit of length of roughness and diameter does not matter. A Reynolds number that is not positive is refused.", "quantifier": "all arguments", "why_tests_cant": "settles for all arguments which are refused, and how; tests try a few", "anchors": ["auxi/tools/transportphenomena/dimensionlessquantities.py", "auxi/tools/transportphenomena/fluidflow/pressuredrop.py"]}
{"id": "C156", "title": "What was created under a name is found under that name", "statement": "After create_component / create_entity / add_activity under a name, model[name], entity[name], get_component(name) and get_activity(name) return what was created, until it is removed. After any history of creations and removals the names stand for piles: a creation puts on top, a removal takes the top away, looking up gives the bottom, and IndexError exactly if the pile is empty; other names are not affected. A renamed component is found under its new name.", "quantifier": "every history of creations and removals, every name", "why_tests_cant": "histories have no bound", "anchors": ["auxi/modelling/business/structure.py: Component.get_component, get_activity, create_component, remove_component, add_activity, Entity.__getitem__", "auxi/modelling/business/models.py: TimeBasedModel.__getitem__, create_entity, remove_entity"]}
{"id": "C157", "title": "What a run posts depends on dates only through the periods they fall in", "statement": "Two entities with the same activities, whose starts and ends fall into the same periods of two clocks (other start date, other unit, other number of units), post the same transactions in the same order, each on the date of its period on the respective clock. In particular a model started d later, with all starts and ends d later, posts the same transactions d later.", "quantifier": "all models, clocks, period counts and shifts", "why_tests_cant": "relates whole runs in two calendars, for all of them", "anchors": ["auxi/core/time.py: Clock", "auxi/modelling/business/structure.py: Activity.prepare_to_run, _meet_execution_criteria", "auxi/modelling/business/basic.py", "auxi/modelling/business/models.py: TimeBasedModel.run"]}
{"id": "C158", "title": "A plan in parts comes to the same as the plan in one piece", "statement": "An entity that has two activities with amounts x and y (or two loans on the same terms) instead of one with amount x + y keeps the same books: the activities move the same amounts between the same accounts on the same dates, the year ends make the same transactions up to order, and so every account has the same balance from transactions on any dates. The same holds if an activity is planned in two halves, one until a day and the other from that day, and if the order or the places of the activities change.", "quantifier": "all models, plans, ways to divide and ledgers", "why_tests_cant": "relates whole runs with their year ends, for all plans and lengths of run", "anchors": ["auxi/modelling/business/structure.py: Activity.prepare_to_run, Entity.run, perform_year_end_procedure", "auxi/modelling/business/basic.py", "auxi/modelling/business/models.py: TimeBasedModel.run"]}
{"id": "C159", "title": "What a loan costs", "statement": "For a BasicLoanActivity with a positive interest rate over a whole positive number d of months: the monthly payment it works out is the one and only fair one, i.e. the d payments, each discounted at rate/12 per month, are together worth the amount of the loan; for a positive amount it is more than amount/d and more than the first month's interest, and at most the sum of the two; it is higher at a higher rate, lower over a longer time, and all payments together are more over a longer time. In a run by months that starts with the loan and goes beyond its end: interest is booked once for each of the d months, each time a positive amount and less than the time before; the same payment is booked in each of these months; the interest booked altogether is d payments less the amount of the loan, and is more at a higher rate and over a longer time.", "quantifier": "every amount, positive rate, number of months, set of distinct accounts, start, and length of run beyond the end of the loan", "why_tests_cant": "unit tests look at one loan over a few months; the comparisons are between all pairs of loans, and need the geometric sum over every duration", "anchors": ["auxi/modelling/business/basic.py:BasicLoanActivity"]}
{"id": "C160", "title": "Ledgers with the same books have the same reports", "statement": "If two ledgers have the same books (the activities moved the same amounts between the same accounts on the same dates, and the year ends made the same transactions, up to order: see C158), then their balance sheets at every date show the same figure for every account and the same totals, their income statements over every time show the same figure for every account and the same totals, and their transaction lists show the same total. If only positive amounts are posted the reports have the same lines up to order. In particular a plan in parts or in another order has the same reports as the plan in one piece.", "quantifier": "every pair of ledgers with the same books, every chart of accounts, every date and time", "why_tests_cant": "relates reports of two arbitrary ledgers, of any length", "anchors": ["auxi/modelling/financial/reporting.py: TransactionList, BalanceSheet, IncomeStatement", "auxi/modelling/business/structure.py: Entity.run"]}
{"id": "C161", "title": "Updating the version updates all of it and nothing else", "statement": "If every place of a source tree that declares the version (setup.py, the modules of auxi, the settings of the documentation) declares version v, then after the update to version w each of them declares w and no other text is changed; so after any number of updates everything declares the version of the last one, and an update and the update back restore the tree. Without a version in setup.py the update raises before any file is written. Every module of auxi declares the version of the release.", "quantifier": "every source tree of files made of lines that declare the version or contain no declaration and of scripts with the version between other text, every history of updates to versions without quotes and line ends", "why_tests_cant": "the tree, the texts and the history of updates are unbounded", "anchors": ["scripts/update_version.py", "setup.py", "auxi/tools/materialphysicalproperties/gases.py: __version__", "auxi/tools/chemistry/thermochemistry.py: __version__"]}
{"id": "C162", "title": "What is installed is what works from the source tree", "statement": "A file of the source tree is installed exactly if it is a module of a listed package or fits a pattern listed for one, where a star stands for any text and names that begin with a dot are hidden. So if every directory with modules is listed, every module that can be imported from the source tree can be imported once installed; and every module of auxi and every file one reads when it is imported is installed.", "quantifier": "every source tree, every list of packages and patterns, every name", "why_tests_cant": "trees, names and patterns are unbounded; tests run from the source tree, where nothing is missing", "anchors": ["setup.py: packages, package_data", "auxi/core/bibliography.py: db", "auxi/tools/transportphenomena/fluidflow/pressuredrop.py"]}
