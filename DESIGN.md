# Formal model of openscm: design

Source: openclimatedata/openscm as found in /repo (read as text, never run).
Model: Lean 4.33.0 + Mathlib, sources in `lean/Verif/`, built by `lake build` in `lean/`.

* `properties.jsonl` — the claims, in terms of the public API.
* `MANIFEST.json` — status of each claim and the theorems for it.
* `AXIOMS.md` — the axioms each of these theorems uses (section 5).
* `seeded/LOG.jsonl` — wrong programs the theorems were tested against.

## 1. What is modelled, layer by layer

Paths are relative to /repo/openscm.

| layer | modules | code |
|---|---|---|
| errors, types, floats | `Basic` | `core/parameters.py:36-110`, exceptions of `errors.py` |
| names | `Names` | splitting and joining at the vertical bar, `core/parameters.py:27`, `221`, `core/regions.py:97`, `149` |
| time conversion | `Time` (lemmas `TimeLemmas`, `TimeTotal`, `TimeIntegral`) | `core/time.py` converters |
| time points, calendar | `TimePoints`, `Calendar` | `core/time.py:157-288`, decimal years |
| units | `Units` | `core/units.py:463-587` over an abstract unit table |
| gases | `Gas`, `GasKeys`, `GasTable` | the gas units defined at the top of `core/units.py` |
| contexts | `Contexts`, `ContextLemmas`, `ContextState` | metric and special contexts of `core/units.py`, `data/metric_conversions.csv`; lazy loading and activation |
| parameter sets | `Core` (lemmas `CoreSteps` … `CoreReach`) | `core/parameters.py`, `regions.py`, `parameterset.py`, `views.py` |
| adapters | `Adapter`, `Dice`, `DiceCalls` (lemmas `Dice*`) | `adapters/__init__.py`, `adapters/dice.py`, `core/__init__.py` |
| patterns | `Regex`, `FilterStr` | `scmdataframe/filters.py` patterns and levels |
| filters by time | `FilterTime` | `scmdataframe/filters.py` years, months, days, hours, times |
| frames | `Frame`, `FrameFilter`, `FrameRename`, `FrameMake`, `FrameUnits`, `FrameRef`, `FrameInterp`, `FrameAppend`, `FrameGroup`, `FrameResample`, `FrameItems`, `FrameTable`, `FrameSetMeta`, `FrameSession`, `FrameSource`, `FrameViews` | `scmdataframe/base.py` |
| offsets | `Offsets` | `scmdataframe/offsets.py` |
| guessed types | `GuessType` | `scmdataframe/parameter_type.py` |
| pyam | `FrameIam` | `pyam_compat.py`, `scmdataframe/base.py` (`to_iamdataframe`) |
| versions | `Version` | `_version.py` |
| frames to parameter sets and back | `RoundTrip` (lemmas `RoundWalk` … `RoundGather`) | `scmdataframe/base.py:453-534`, `scmdataframe/__init__.py:33-168` |

Files whose name contains `Props` hold property theorems (`Cnn_*`), as do `FrameMake`, `FrameUnits2`, `FrameRef`,
`FrameInterp2`, `FrameAppend2` … `FrameAppend4`, `FrameResample`, `FrameResample2`, `FrameItems`, `FrameTable`, `FrameTable2`,
`FrameSetMeta`, `FrameDistinct`, `FrameCommute`, `FrameContext`, `ContextState`, `TimeRange`, `TimeRefine`, `TimeGaps3`, `CoreGaps`, `CoreOptions`, `VersionArchive`, `VersionDir`, `FrameIam2`, `FrameIam3`, `FrameSource`, `FrameSource2`, `FrameViews`, `DiceMono`, `DiceMono2`, `TimeClock`, `FrameSelect`, `FrameSelect2`, `TimeStable`, `FrameLoad`, `FrameLoad2`, `RoundAny`, `FrameAny`, `CoreOpaque`, `FrameDice`, `DiceFrame`, `FrameMean`, `FrameJoin`, `Scenarios`, `FrameNeeds`, `FrameLoads`, `FrameScalars`, `FrameOrder`, `FramePart`, `FrameConverted`, `FrameAlone`, `FrameRenamed`, `DiceSame`, `DiceScalars`, `DiceOutputs`, `DiceRest`, `TimeThrough`, `FrameRefine`, `CoreElems`, `CoreKinds`, `CoreUnits`, `RoundDeep`, `Exact`, `OffsetExact` and `GuessType`. Specifications stand next to the theorems, in sections "Specification",
or in `CoreSpec`, `DiceSpec*`, `FrameSpec`. They do not call the functions of the model other than to say what is run.

### Parameter sets
A heap model. Regions, parameters and views live in lists and refer to each other by index, so aliasing (several views
of one parameter, children of a view) is explicit. Each public call is one `Op`; `call env op` takes a state to a
result and a state. A Python exception is an `Err` value together with the state *as left behind* at the raise, so
partial effects of failing calls are visible to the theorems. History theorems quantify over all `List Op` from the
empty set (`Reachable`). Programs that use parameter sets (DICE, frame conversion) are sequences of these same calls.

### Numbers
Python floats are elements of an arbitrary linearly ordered field `K` (theorems hold for rationals and reals alike).
NaN is a separate constructor of `Fl K`. No rounding, overflow, infinities or signed zero. Timestamps are integers
(seconds since 1970).

### External libraries
* pint: an arbitrary table from unit strings to (dimension, nonzero scale, offset). Which strings parse, and to what,
  is a parameter of every theorem, except for the gas units, which are modelled from the definitions in the code.
* scipy `interp1d(kind="linear")`: from its documented algorithm (searchsorted, clip, slope); `quad` is the exact
  integral of the piecewise linear function (`TimeIntegral` proves that `prim` is one).
* numpy: arrays are lists; the casting rule of `np.copyto` and integer truncation are modelled for the view cache.
* pandas: only the operations used, as list functions; pandas 0.25 semantics for offsets.
* `re`: the fragment that the code builds (literals, `.`, `*`, classes, anchors, escapes), see `Regex`.

## 2. Trusted base
The Lean kernel; the axioms `propext`, `Classical.choice`, `Quot.sound` (no others, see `AXIOMS.md`); the hand
translation from Python described by the comment on each definition; the idealisations above and in section 6. No
`sorry`, no `native_decide`, no `bv_decide`, no axioms of our own. Finite tables (gases, metric values) are checked in
full by `decide +kernel`.

## 3. Approach per property

* C01 scalar read after write, C02 last write wins, C14 versions, C15 isolation, C21 emptiness: every call is
  decomposed into a handful of primitive heap changes; invariants of the primitives are invariants of all histories.
  A write log computed from calls and outcomes only is the specification of what is stored.
* C03 type fixed, C04 unit and time points fixed, C05, C06, C07 children and write protection: same method.
* C08, C10, C11, C12, C13, C18, C19, C20, C21: violated by the code at least in part; a concrete history is proved to
  violate the claim, and theorems with suffix `_partial` state what does hold.
* C09: leaves characterised by parent pointers (spec) against the recursive walk (code).
* C16 lookup, C17 names: lookup by path against the walk that creates.
* C22-C28: conversion of timeseries, lists over a field of any length. C29-C31: creation and parsing of time points.
* C32-C34: affine converters over an arbitrary unit table. C35, C61: contexts. C36, C60: the whole gas table.
* C37 registry of adapters, C38 initialisation, C39-C45 DICE: recurrences as functions of what the model reads,
  sessions of arbitrary calls by the user and the model.
* C46-C51: filters and renaming; a frame is a set of cells (metadata, time, value).
* C52 append, C53 convert_unit, C54 reference period, C55 generate_range, C56 interpolate, C57 round trip through a
  parameter set, C58 guessed types, C59 construction.
* C62 process_over: median and quantile are specified by the values in order (any sorted permutation), and shown to be
  unique and monotone.
* C63 resample: C55 and C56 together; resampling twice by showing that a range of times generates itself and that the
  converter is the identity on equal axes.
* C64 item access: sequences of assignments to items, accepted or refused; what is read is compared with the last
  assignment whose value fits.
* C65 long tables, C66 wide tables: tables are specified by what a row has under a name; the frame by its metadata,
  times and values. The round trip follows from C66 for the table that `timeseries()` returns.
* C67 programs: `fcall` takes a list of frame objects to the error, if any, and the frame objects after the call. The
  claims are an invariant of single frames, kept by every call, and what one call does to the other frames.
* C68 distinct timeseries: the same programs. "Distinct apart from the columns X" is kept by every call that changes at
  most columns of X, so one theorem covers all calls.
* C69 metadata by index: the outer join of pandas as a function on lists, which rows it has (`mem_mergeOuter`), and when
  it keeps the order of the timeseries; data and metadata are paired by position.
* C70 elements: positions as Python counts them (`Denotes`), and the array after a list of assignments by which of them
  is the last for each position.
* C71 units of views: conversion of time points commutes with every map `x ↦ a*x + b` (`convert_affine`, no hypotheses);
  what a view shows is related to what is stored by C12 and C23, so views are compared through the stored values.
* C72 units and times of frames: `convert_affine` again, timeseries by timeseries, with what C53 and C56 say about each.
* C77 frames in a metric: `convert_unit` with the state of the registry passed on from group to group; C53 and C35
  together.
* C79 requests: what a request adds to a state (`More`) and why no read sees it. `CoreKeep` also says when units make
  a request fail (C34).
* C85 options: `MeansExt`, `MeansType`, `MeansInt` say which arguments name which option, `Says` what an option says about
  a time, both without the converters.
* C86 versions: `described` and `decorated` say what git prints about a checkout or an archive; the theorems compare
  checkouts with versions.
* C115 same outputs: `SameSettings` (all inputs of two runs but their emissions), `Sees` as in C97, `Journey` and `Shows` as in C39.
* C114 scalars: `Unassigned` (version of the parameter as when the frame was made into the set), `startOf`, and `freshScalar`, `lowerBound`, `upperBound`, `pintTo` as before.
* C113 same emissions: `Untouched` and `readEmissions` as in C100, `SameSeries` as in C111.
* C112 renamed: `Sees` as in C97; what `rename` does is only used through C51.
* C111 alone: `SameSeries` says that timeseries of two frames have the same variable, region, unit, type and values.
* C110 converted: `Sees` says what a view shows (C97); the rest as in C106.
* C109 part: `PicksRow` says which timeseries a filter asks for (C72, C93); the rest as in C107.
* C108 order: `DFrame.Reordered` says that every timeseries of one frame is in the other one, with the same values and
  metadata.
* C107 scalars: `DFrame.Written` and `ColumnName` say how columns are named, `LoadableAll` is `Loadable` with what
  scalars need; `ScalarColumn` and `NumberOf` as in C78.
* C106 loads: `Loadable` lists what a frame has to be like, in terms of `HasMeta`, `NameBelow` and `MeansType`; it does
  not refer to parameters or regions of the model.
* C105 needs: `NameBelow` says that one name is a part of another one; the rest is `HasMeta` and `MeansType`, as before.
* C104 the scenarios: `Shipped` says that the four files are there, with the header and the metadata of the files in
  `openscm/scenarios` and any values; `ReadsYears` says how dates are read; `EmissionsOf` says what metadata a timeseries
  has. That the csv files have this header and these rows was compared by a script outside of the proofs.
* C103 appending and interpolating: both orders are compared through the values that frames have for given metadata
  (`DFrame.Has`); `TypesAlike` says how the frames state types.
* C102 means and interpolation: `SameAtTimes`, rows with the same metadata whose values are placed at the new times
  (`Placed`); `Kinds`, `OneKind` and `OneSpelling` say what types the timeseries have and how they are written.
* C101 from DICE to frames: the table `outputSpec` of variables, units and types of the outputs; `OwnOutputs`, what
  `info` finds among the outputs; values as a reader of the output is shown them (`Shows`).
* C100 from frames to DICE: emissions as a view of the parameter set shows them (`Untouched`, `Scenario.begins`,
  `diceUnit`), values as `interpolate` of the frame gives them.
* C99 any parameter set: timeseries and values by what `info` reports and fresh views show (`ShallowLeaf`, `SeriesOn`,
  `WorldValue`, `ValueColumn`).
* C98 back on other times: what is expected back (`Back`), by views of the parameter set (`Sees` of C97).
* C97 frame and views: the time points of a timeseries (`Axis`), asking for a view and reading it (`Sees`), the meaning of options (`MeansType`, `MeansInt`, `MeansExt` of C85), types of timeseries (`TypeIs` of C56).
* C96 rest: pools relative to their sizes in equilibrium (`PoolsAbove`, `PoolsBelow`), the least part a pool gets from the shallow ocean (`Mixes`) and the part of a distance lost in two steps (`relaxation`).
* C95 steps: frames whose metadata say that all timeseries are of one kind (`OfKind`), times that include others (`Finer`; for averages with the end of the last period).
* C94 changes: lists whose elements differ by something between two bounds (`DiffIn`).
* C93 selections: filters about metadata (`AboutMeta`, `OtherColumns`) and frames without missing values (`Complete`); results are
  the same frame, or for anomalies the same rows.
* C92 clocks: two converters whose time points are related by `t' = s * t + c` with positive `s`.
* C90 order, C91 causes and mixtures in DICE: two or three journeys compared by what somebody reads; the recurrence in
  numbers (`NStep`) keeps the order and mixtures.
* C88 sources: `ReadsFile` says which table is in a file.
* C89 chosen columns: `DFrame.AgreeOn` says which timeseries agree; rows are compared by metadata and values.
* C87 pyam: `Table.Complete`, `Table.NoDuplicates` and `Clock.Reads` say which rows and tables; the frame that comes back
  is compared by metadata and values.
* C84 missing values: conversion marks results with `gaps`, which is computed from which values are missing alone. Proved
  about it: unmarked results agree for any two ways to fill the gaps, marked ones (points) differ for some two; specified
  without it (`Fills`, results of `convert` for complete timeseries).
* C83 anomalies after conversion: said with differences between values and means alone; timeseries of both results are
  matched by their order in the table.
* C82 statistics after conversion: rows of both tables are matched by their metadata other than units and contexts, and
  the values of one are those of the other under the same affine function.
* C80, C81 appending with filters and in steps: all three are compared through the values that frames have for given
  metadata and time (`valuesFor`), as lists, since averages depend on how often a value occurs.
* C78 metadata in parameter sets: what `to_parameterset` refuses, what it stores for a column, what comes back. The
  arguments of `convert_openscm_to_scmdataframe` are defaults, as documented.
* C75 range: bounds on the knots of the piecewise linear function, then on its values and integrals. Partial: averages
  overshoot.
* C76 finer and back: integrals over the fine periods telescope; for parameters the argument of C12 on two grids.
* C74 converters and history: the state of the global registry is before or after loading, with no context active.
  pint's own contexts are an arbitrary list; users enabling contexts themselves are not modelled.
* C73 kinds of descendants: requests make one converter per leaf, and only timeseries have time points (an invariant of
  all states, `TpsOK`).

## 4. Disagreements found between code and claims

Each item with a theorem name is proved of the model by a concrete reachable state or input.

Parameter sets:
* Element assignment and in-place operators on the array of a timeseries view skip the write check
  (`C08_element_assignment_accepted`).
* Aggregated scalar views miss leaves that were created later (`C10_old_view_misses_new_leaf`).
* Aggregated timeseries views keep their first result for ever (`C11_stale_after_child_write`).
* The type of children is not checked when aggregating: a scalar view is granted above timeseries (`C73_mixed`); what it
  shows is not modelled. Generic leaves make requests fail with `TypeError`, not with the exception for aggregation.
* Aggregated views in units with an offset convert every summand, offset included, so two of them show different
  quantities: 300 K is shown as -246.3 degC (`C71_offset`).
* A refused write stays visible through the view (`C12_refused_write_visible`, `C18_refused_stays_visible`) and marks
  the parameter as written, after which it reads as NaN (`C18_refused_marks_written`, `C21` witnesses).
* Assigning integers first truncates later assignments through the same view (`C12_integer_cache`).
* After integers were assigned, assigned elements are cut to integers and operations in place raise (`C70_integers`).
* Locked views: unreadable if locked before the first read (`C13_locked_unreadable`), pending writes are discarded when
  another view writes (`C13_locked_discarded`), first write of an empty parameter shows NaN to others
  (`C19_first_write_shows_nan`).
* `generic` on a parameter with children raises the first time only (`C20_second_request_accepted`).
* `info("")` raises ValueError while `info(("",))` finds the parameter of this name (`C17_empty_name`).
* A first request with an undefined unit leaves the parameter with that unit for good.

Time and units:
* Averages on unequal periods do not reproduce straight lines (`C25_average_line_nonuniform_fails`).
* Averages that are never negative can become negative on finer periods (`C75_negative`), by up to half the range of the
  data (`C75_sharp`).
* Errors of averages can be doubled on finer periods (`C94_sharp`), and larger averages can give smaller ones
  (`C94_order_average`).
* Averages converted to finer periods and from there to others are not those converted at once
  (`C95_through_average`).
* A target with one time point raises `IndexError`.
* `create_time_points` cuts its inputs to whole seconds (`C29_close` bounds the effect).
* Three sulfur units cannot be used (`C36_sulfur_undefined`, `C36_sulfur_refused`).
* `UnitConverter.contexts` lists the contexts of openscm only after one has been used (`C74_contexts`).
* NH3 and N convert in metric contexts through the value of N2O.

DICE:
* The ramp of the forcing by other gases is cut to whole ticks (`C45_not_linear`).
* Runs of fewer than three steps and steps past the end raise; the latter only after advancing (`C44_end`).
* An initialisation that raises half-way is repeated by the next call.

Frames:
* `pattern_match` does not escape `[ ? ^ { \` and treats newlines specially (`C48_question`, `C48_caret`,
  `C48_backslash`, `C48_newline`).
* Lists with two ranges of months or weekdays raise, even the documented one (`C50_documented`); a third name in
  `"Jan-Feb-Mar"` is ignored.
* Filtering an empty frame raises (`C47_empty`); a level given apart from its variable counts from the root
  (`C47_level`).
* A refused renaming or unit conversion in place leaves a half-changed frame (`C51_inplace`, `C53_inplace`).
* `convert_unit` without context adds a column `unit_context` with None, with which `process_over` finds no groups and
  returns an empty table without notice (`C82_lost`).
* The version of an archive may be the name of a branch (`C86_branch`), and tags with a `+` can give the version of
  another checkout (`C86_collision`).
* The value after a missing one is lost in conversions, even to the same time points (`C84_lost`), so that of a point
  timeseries with a missing value other views miss three (`C84_parameter`).
* `df_append` turns metadata -999 into NaN (`C52_sentinel`).
* Appending one frame after the other weighs the last ones more where values are averaged (`C81_weights`).
* Filtering drops timeseries without values, so `convert_unit` leaves them alone (`C53_no_values`).
* `convert_unit` notes the metric but does not check it: back in another metric changes the values silently
  (`C77_other_metric`).
* `relative_to_ref_period_mean` raises `TypeError` for filters given as single values unless a name is given
  (`C54_name`).
* `generate_range` may end before the end (`C55_multiple`, `C55_clock`, `C55_tick`).
* `interpolate` refuses frames that mix averages and points (`C56_mixed`).
* Converting back from a parameter set drops regions two or more levels below `World` (`C57_deep`; exactly these,
  `C57_exact_partial`).
* A generic value called `variable`, `region`, `unit` or `parameter_type` takes the place of that column when a parameter
  set is converted to a frame (`C99_names_matter`).
* Frames in which both kinds were accepted because of their spelling ("POINT") cannot be interpolated a second time
  (`C63_mixed`).
* `process_over` drops timeseries with missing metadata (`C62_dropped`).
* A refused `df["time"] = …` changes what `df["time"]` returns but not the times of the values (`C64_refused_time`).
* `df["year"] = …` is accepted and then ignored by `df["year"]` (`C64_year_ignored`).
* Rows of long tables with missing metadata are dropped (`C65_dropped`).
* A refused `df["time"] = times` leaves the refused times behind, after which every filter fails (`C67_refused_time`).
* Conversion of units, interpolation and refused renaming in place can make timeseries the same, after which
  `timeseries()` refuses the frame (`C68_convert`, `C68_interpolate`, `C68_rename`).
* A timeseries that loses its values in `interpolate` keeps its unit in a following `convert_unit`, so the order of the
  two calls matters if values are missing (`C72_missing`).
* `set_meta` with an index sorts the metadata but not the data, so timeseries get the metadata of others
  (`C69_swapped`, exactly when by `C69_exact`); unknown keys add metadata of no timeseries and repeated keys repeat rows
  (`C69_more`); existing columns are split in two or raise (`C69_existing`).
* Metadata called `Run` comes back from pyam as `run` (`C87_case`).
* Columns with dates as text are sorted as text, so times may be out of order (`C66_unsorted`).
* Frames with metadata called `value`, or by a name that `dateutil` reads as a date, cannot be read from their own
  `timeseries()` (`C66_value`, `C66_looks`); times after the year 9999 come back as other times (`C66_far`).
* numpy arrays of length one are not broadcast but refused (`C59_array`).
* C103: `df_append` puts NaN into the column `parameter_type` of a frame that has none, and `interpolate` guesses types
  only where it finds None. A frame without types that is appended to one with types therefore has only NaN after
  interpolation, although it can be interpolated by itself (`C103_untyped`).

* C104: the emissions `Emissions|SOx` of the scenarios are in `Mt S / yr`, and `S` refers to a unit that nothing defines
  (`C104_sulfur`, see C36), so they can be converted to no other unit. (pint returns early where both units are the
  same, so a conversion to their own unit works; the model refuses it.)

* C105: two timeseries for one variable and region, in different units, are not refused by `to_parameterset`: the second
  replaces the first (`C105_replaced`).
* C107: two columns of metadata for one scalar, such as `S (K)` and `S (mK)`, are not refused by `to_parameterset`: the
  value of the second replaces that of the first, in the unit of the first (`C107_twice`). C107 is about frames with one
  column for each name.

* C108: whether a frame with a scalar that is NaN for one timeseries and `None` for another one can be made into a
  parameter set depends on their order (`C108_none`).
* `convert_unit` with a context on some of the timeseries makes a frame that `to_parameterset` refuses: the column
  `unit_context` it adds is not shared by all timeseries (`C110_context`).  Even without context, the added column clashes
  with a variable of World called `unit_context` (example in `FrameConverted`).

## 5. Axioms
`AXIOMS.md` lists the output of `#print axioms` for each theorem of `MANIFEST.json`. All are subsets of
`propext`, `Classical.choice`, `Quot.sound`.

## 6. What is not modelled, and simplifications

General: floating-point rounding, infinities, memory, threads, the command line, logging and warnings, plotting,
the contents of files (C88 takes them as what pandas reads), documentation notebooks, `to_csv`, `from_csv`, MAGICC and FaIR binaries.

Parameter sets: `repr`, direct use of private attributes; the arithmetic of arrays other than element assignment and
in-place operators; the name of the root region is a parameter of the model.

Time: `quad` is exact; interpolation is linear only (the code has no other kind). NaN: as scipy 1.3 passes it
on for integer times (later versions of scipy and numpy take values at time points of the source from there); an average
is NaN if the function is in some part of the interval, which the real quadrature may miss if the part is short.

Units: a unit that cannot be parsed and one that is undefined are the same error. Metric values of zero would raise
`ZeroDivisionError`.

pyam: not part of the repository; `IamDataFrame(table)` is modelled after pyam 0.2 (long form, rows with anything missing
left out, duplicates refused, times checked). Not modelled: columns of the same name, a column `notes`, wide tables with
metadata that reads as a time, dates without time of day, texts that the parser refuses with other errors than ValueError.

Versions: which outputs git gives is specified, not derived; the texts of errors; ASCII digits and white space.

Names of types: Python's `upper()` also accepts dotless i and long s.

DICE: input and output are separate parameter sets; `log2` is an uninterpreted function; the junk in `np.empty` is an
argument; division by zero is as in fields; times are whole seconds; a period of zero is `ValueError` where Python may
raise `OverflowError`; truth values of a non-boolean `original_rounding` are unmodelled. Statements about outputs
assume that the start lies on the axis of the output and a positive period. C45 assumes that truncation has the usual
property and a positive tick. C42 and C43 are about what new views read after runs that succeed; C43_again assumes
that the emissions are stored in the parameter itself.

Patterns and filters: only the fragment of `re` above; `int()` of ASCII digits; English month names and ASCII case
folding in `strptime`; comparison of times with anything else is unmodelled. Data and metadata of a frame are paired
by label or by position as the code does. Which of several errors comes first when filtering an empty frame is
simplified, as is the error for mismatching labels. The order of two filters matters only for errors (C47).

Renaming: mappings from text to text; `Series.replace` is simultaneous; None and NaN are the same for duplicates.

Offsets: pandas 0.25; fallback for dates outside of the range of `Timestamp`; `normalize`, time zones and other offsets
are unmodelled.

Sources: of the arguments for pandas only `sheet_name`, with a string; a series is a table of one column.

Frame construction: series as columns are unmodelled. Items: series as values and lists for frames without timeseries
are unmodelled; pandas may store a column of integers and floats as floats. `convert_unit`: units are text or missing; a converter per unit is
given. Reference period: row order, missing metadata with unaligned rows and variables that are no text are unmodelled;
the format of the name is a parameter. Guessed types: groups in patterns are expanded into alternatives; text of a
dimensionality containing `[time]` means having that base dimension. `interpolate`: types are text or missing; whether
pandas hands out views is a parameter (`views`). `append`: times of each frame are distinct; rows come in the order of
first appearance; equal values keep their first form; data are floats; inputs other than frames are unmodelled. Round trip: values are floats; variables, regions and units are text; at least two further metadata columns
(squeeze); white space is that of `Char.isWhitespace`; the parameter set has root `World`. `process_over`: the order of the rows is not
modelled; quantiles are numbers and interpolate linearly, as pandas 0.25 does by default; other keyword arguments are
unmodelled.

Tables: labels are text, integers or datetimes; ASCII lower case; which texts are dates, and which dates, is a
parameter; values that are no numbers, mixed time columns, double names and long tables without any complete row are
unmodelled; rows are labelled 0, 1, 2, …; the order of timeseries from long tables is not modelled.

Untouched: `line_plot` and the other plots, `pivot_table`, `to_csv`, the fallback to `datetime` in `apply_dt`
(`offsets.py:27-59`), the texts of `__str__`, and of `_version.py` what is not called in an installed
package (`get_config`, `register_vcs_handler`, `run_command`, `git_get_keywords`).
